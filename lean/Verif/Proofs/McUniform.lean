import Mathlib.Analysis.SpecificLimits.Basic
import Mathlib.Data.Nat.Choose.Basic
import Verif.Proofs.MonteCarlo
/-!
# The distribution of the random board
-/
namespace Pokers
open CombinedRange Sim Spec

/-! ## The cards of a random board -/

/-- The cards drawn by `randomize_board`, in order; `none` if the draws are not exactly those of one board. -/
def boardDraw : Nat → Nat → Draws → Option (List Nat)
  | 0, _, [] => some []
  | 0, _, _ :: _ => none
  | _ + 1, _, [] => none
  | k + 1, used, x :: xs =>
    if x < 52 then
      if used.testBit x = false then (boardDraw k (used ||| (1 <<< x)) xs).map (x :: ·) else boardDraw (k + 1) used xs
    else none

theorem randomizeBoard_cons (k used : Nat) (board : Hand) (x : Nat) (xs : Draws) : randomizeBoard (k + 1) used board (x :: xs) =
    if x < 52 then if used.testBit x = false then randomizeBoard k (used ||| (1 <<< x)) (board + CARDS x) xs
      else randomizeBoard (k + 1) used board xs else .more := by
  show (match drawCard used (x :: xs) with
    | .ok card rest => randomizeBoard k (used ||| (1 <<< card)) (board + CARDS card) rest
    | .more => .more
    | .panic => .panic) = _
  have e : drawCard used (x :: xs) =
      if x < 52 then if used &&& (1 <<< x) = 0 then Out.ok x xs else drawCard used xs else .more := rfl
  rw [e]
  by_cases hx : x < 52
  · rw [if_pos hx, if_pos hx]
    by_cases hu : used.testBit x = false
    · rw [if_pos ((and_shl_eq_zero _ _).2 hu), if_pos hu]
    · rw [if_neg (fun h => hu ((and_shl_eq_zero _ _).1 h)), if_neg hu]
      rfl
  · rw [if_neg hx, if_neg hx]

theorem randomizeBoard_draw : ∀ (ds : Draws) (k used : Nat) (board b : Hand), randomizeBoard k used board ds = .ok b [] ↔
    ∃ cs, boardDraw k used ds = some cs ∧ b = cs.foldl (fun h c => h + CARDS c) board := by
  intro ds
  induction ds with
  | nil =>
    intro k used board b
    cases k with
    | zero =>
      constructor
      · intro h; injection h with h _; exact ⟨[], rfl, h.symm⟩
      · rintro ⟨cs, h1, h2⟩
        have : cs = [] := by cases h1; rfl
        subst this
        rw [h2]; rfl
    | succ k =>
      constructor
      · intro h; cases h
      · rintro ⟨cs, h1, _⟩; cases h1
  | cons x xs ih =>
    intro k used board b
    cases k with
    | zero =>
      constructor
      · intro h; injection h with _ h; cases h
      · rintro ⟨cs, h1, _⟩; cases h1
    | succ k =>
      rw [randomizeBoard_cons]
      show _ ↔ ∃ cs, (if x < 52 then
        if used.testBit x = false then (boardDraw k (used ||| (1 <<< x)) xs).map (x :: ·) else boardDraw (k + 1) used xs
        else none) = some cs ∧ _
      by_cases hx : x < 52
      · rw [if_pos hx, if_pos hx]
        by_cases hu : used.testBit x = false
        · rw [if_pos hu, if_pos hu, ih]
          constructor
          · rintro ⟨cs, h1, h2⟩
            exact ⟨x :: cs, by rw [h1]; rfl, h2⟩
          · rintro ⟨cs, h1, h2⟩
            obtain ⟨cs', h3, rfl⟩ := Option.map_eq_some_iff.1 h1
            exact ⟨cs', h3, h2⟩
        · rw [if_neg hu, if_neg hu]; exact ih _ _ _ _
      · rw [if_neg hx, if_neg hx]
        constructor
        · intro h; cases h
        · rintro ⟨cs, h1, _⟩; cases h1

/-- All sequences of `L` values of a card. -/
def drawLists : Nat → List Draws
  | 0 => [[]]
  | L + 1 => (List.range 52).flatMap fun x => (drawLists L).map (x :: ·)

theorem mem_drawLists : ∀ (L : Nat) (ds : Draws), ds ∈ drawLists L ↔ ds.length = L ∧ ∀ x ∈ ds, x < 52 := by
  intro L
  induction L with
  | zero => intro ds; cases ds <;> simp [drawLists]
  | succ L ih =>
    intro ds
    unfold drawLists
    rw [List.mem_flatMap]
    constructor
    · rintro ⟨x, hx, h⟩
      obtain ⟨ds', h1, rfl⟩ := List.mem_map.1 h
      obtain ⟨h2, h3⟩ := (ih ds').1 h1
      refine ⟨by simp [h2], fun y hy => ?_⟩
      rcases List.mem_cons.1 hy with rfl | hy
      · exact List.mem_range.1 hx
      · exact h3 y hy
    · rintro ⟨h1, h2⟩
      cases ds with
      | nil => simp at h1
      | cons x xs =>
        refine ⟨x, List.mem_range.2 (h2 x (by simp)), List.mem_map.2 ⟨xs, (ih xs).2 ⟨by simpa using h1, fun y hy => h2 y (by simp [hy])⟩, rfl⟩⟩

theorem drawLists_nodup : ∀ L, (drawLists L).Nodup := by
  intro L
  induction L with
  | zero => simp [drawLists]
  | succ L ih =>
    unfold drawLists
    rw [List.nodup_flatMap]
    refine ⟨fun x _ => ih.map (fun a b h => by injection h), ?_⟩
    refine List.nodup_range.imp ?_
    intro x y hxy
    show List.Disjoint _ _
    intro ds h1 h2
    obtain ⟨_, _, rfl⟩ := List.mem_map.1 h1
    obtain ⟨_, _, h3⟩ := List.mem_map.1 h2
    injection h3 with h3 _
    exact hxy h3.symm

theorem drawLists_length (L : Nat) : (drawLists L).length = 52 ^ L := by
  induction L with
  | zero => rfl
  | succ L ih =>
    unfold drawLists
    rw [List.length_flatMap]
    simp only [List.length_map, ih, List.map_const', List.length_range, List.sum_replicate, smul_eq_mul]
    rw [pow_succ]; ring

/-- The number of used cards. -/
def usedCount (used : Nat) : Nat := ((List.range 52).filter fun c => used.testBit c).length

/-- The number of sequences of `L` draws that give `k` particular new cards in a particular order, when `m` cards are used. -/
def orderCount : Nat → Nat → Nat → Nat
  | _, 0, 0 => 1
  | _, 0, _ + 1 => 0
  | _, _ + 1, 0 => 0
  | m, k + 1, L + 1 => m * orderCount m (k + 1) L + orderCount (m + 1) k L

theorem usedCount_or {used c : Nat} (hc : c < 52) (hu : used.testBit c = false) : usedCount (used ||| (1 <<< c)) = usedCount used + 1 := by
  unfold usedCount
  have hperm : ((List.range 52).filter fun x => (used ||| (1 <<< c)).testBit x).Perm
      (c :: (List.range 52).filter fun x => used.testBit x) := by
    rw [List.perm_ext_iff_of_nodup (List.nodup_range.filter _)]
    · intro x
      rw [List.mem_filter, List.mem_cons, List.mem_filter, Nat.testBit_or, Bool.or_eq_true, testBit_one_shl, List.mem_range]
      simp only [decide_eq_true_eq]
      constructor
      · rintro ⟨h1, h2 | h2⟩
        · exact Or.inr ⟨h1, h2⟩
        · exact Or.inl h2
      · rintro (h | h)
        · subst h; exact ⟨hc, Or.inr rfl⟩
        · exact ⟨h.1, Or.inl h.2⟩
    · rw [List.nodup_cons]
      refine ⟨fun h => ?_, List.nodup_range.filter _⟩
      have := (List.mem_filter.1 h).2
      rw [hu] at this
      cases this
  rw [hperm.length_eq]; rfl

theorem countP_cons_map (P : Draws → Bool) (x : Nat) (xs : List Draws) :
    (xs.map (x :: ·)).countP P = xs.countP (fun ds => P (x :: ds)) := by
  rw [List.countP_map]; rfl

theorem sum_ite_const {α : Type} (l : List α) (p : α → Prop) [DecidablePred p] (a : Nat) :
    (l.map fun x => if p x then a else 0).sum = (l.filter fun x => decide (p x)).length * a := by
  induction l with
  | nil => simp
  | cons x l ih =>
    rw [List.map_cons, List.sum_cons, ih, List.filter_cons]
    by_cases h : p x
    · simp only [h, if_true, decide_true, List.length_cons]; ring
    · simp only [h, if_false, decide_false, Bool.false_eq_true]; ring

/-- The number of draw sequences that give particular cards in a particular order. -/
theorem order_count : ∀ (L k used : Nat) (cs : List Nat), cs.length = k → cs.Nodup → (∀ c ∈ cs, c < 52 ∧ used.testBit c = false) →
    (drawLists L).countP (fun ds => decide (boardDraw k used ds = some cs)) = orderCount (usedCount used) k L := by
  intro L
  induction L with
  | zero =>
    intro k used cs hl hn hc
    cases k with
    | zero => rw [List.length_eq_zero_iff.1 hl]; simp [drawLists, boardDraw, orderCount]
    | succ k => simp [drawLists, boardDraw, orderCount]
  | succ L ih =>
    intro k used cs hl hn hc
    cases k with
    | zero =>
      show ((List.range 52).flatMap fun x => (drawLists L).map (x :: ·)).countP _ = 0
      rw [List.countP_eq_zero]
      intro ds hds
      obtain ⟨x, _, h⟩ := List.mem_flatMap.1 hds
      obtain ⟨ds', _, rfl⟩ := List.mem_map.1 h
      simp [boardDraw]
    | succ k =>
      cases cs with
      | nil => simp at hl
      | cons c cs =>
        obtain ⟨hc52, hcu⟩ := hc c (by simp)
        rw [List.nodup_cons] at hn
        show ((List.range 52).flatMap fun x => (drawLists L).map (x :: ·)).countP _ = _
        rw [List.countP_flatMap]
        have hterm : ∀ x ∈ List.range 52, ((drawLists L).map (x :: ·)).countP
            (fun ds => decide (boardDraw (k + 1) used ds = some (c :: cs))) =
            (if used.testBit x = true then orderCount (usedCount used) (k + 1) L else 0) +
              (if x = c then orderCount (usedCount used + 1) k L else 0) := by
          intro x hx
          have hx := List.mem_range.1 hx
          rw [countP_cons_map]
          have e : ∀ ds, boardDraw (k + 1) used (x :: ds) = if used.testBit x = false then
              (boardDraw k (used ||| (1 <<< x)) ds).map (x :: ·) else boardDraw (k + 1) used ds := by
            intro ds
            show (if x < 52 then _ else _) = _
            rw [if_pos hx]
          simp only [e]
          by_cases hux : used.testBit x = false
          · have hux' : ¬ used.testBit x = true := by rw [hux]; simp
            simp only [hux, if_true]
            by_cases hxc : x = c
            · subst hxc
              rw [if_pos rfl]
              have := ih k (used ||| (1 <<< x)) cs (by simpa using hl) hn.2 (by
                intro y hy
                refine ⟨(hc y (by simp [hy])).1, ?_⟩
                rw [Nat.testBit_or, (hc y (by simp [hy])).2, testBit_one_shl, Bool.false_or]
                simp only [decide_eq_false_iff_not]
                intro h
                exact hn.1 (h ▸ hy))
              rw [usedCount_or hx hux] at this
              rw [← this]
              simp
            · rw [if_neg hxc]
              simp only [Bool.false_eq_true, if_false, Nat.add_zero]
              rw [List.countP_eq_zero]
              intro ds _
              simp only [decide_eq_true_eq]
              intro h
              obtain ⟨_, _, h3⟩ := Option.map_eq_some_iff.1 h
              injection h3 with h3 _
              exact hxc h3
          · have hux' : used.testBit x = true := by simpa using hux
            have hxc : x ≠ c := by rintro rfl; rw [hcu] at hux'; cases hux'
            simp only [hux, if_neg hxc, if_true, Nat.add_zero]
            exact ih (k + 1) used (c :: cs) hl (List.nodup_cons.2 hn) hc
        refine (congrArg List.sum (List.map_congr_left hterm)).trans ?_
        rw [List.sum_map_add, sum_ite_const, sum_ite_const]
        show _ = usedCount used * orderCount (usedCount used) (k + 1) L + orderCount (usedCount used + 1) k L
        have h1 : ((List.range 52).filter fun x => decide (x = c)).length = 1 := by
          rw [← List.countP_eq_length_filter]
          have := List.count_eq_one_of_mem List.nodup_range (List.mem_range.2 hc52)
          rw [← this]
          unfold List.count
          rfl
        rw [h1, Nat.one_mul]
        congr 2
        unfold usedCount
        congr 2
        funext x
        simp

theorem boardDraw_ok : ∀ (ds : Draws) (k used : Nat) {cs : List Nat}, boardDraw k used ds = some cs →
    cs.length = k ∧ cs.Nodup ∧ ∀ c ∈ cs, c < 52 ∧ used.testBit c = false := by
  intro ds
  induction ds with
  | nil =>
    intro k used cs h
    cases k with
    | zero => cases h; simp
    | succ k => cases h
  | cons x xs ih =>
    intro k used cs h
    cases k with
    | zero => cases h
    | succ k =>
      change (if x < 52 then
        if used.testBit x = false then (boardDraw k (used ||| (1 <<< x)) xs).map (x :: ·) else boardDraw (k + 1) used xs
        else none) = _ at h
      by_cases hx : x < 52
      · rw [if_pos hx] at h
        by_cases hu : used.testBit x = false
        · rw [if_pos hu] at h
          obtain ⟨cs', h1, rfl⟩ := Option.map_eq_some_iff.1 h
          obtain ⟨g1, g2, g3⟩ := ih _ _ h1
          refine ⟨by simp [g1], List.nodup_cons.2 ⟨fun hm => ?_, g2⟩, fun c hc => ?_⟩
          · have := (g3 x hm).2
            rw [Nat.testBit_or, testBit_one_shl] at this
            simp at this
          · rcases List.mem_cons.1 hc with rfl | hc
            · exact ⟨hx, hu⟩
            · have := (g3 c hc).2
              rw [Nat.testBit_or, Bool.or_eq_false_iff] at this
              exact ⟨(g3 c hc).1, this.1⟩
        · rw [if_neg hu] at h; exact ih _ _ h
      · rw [if_neg hx] at h; cases h

theorem countP_exists {α β : Type} [DecidableEq β] (f : α → Option β) (l : List α) : ∀ (P : List β), P.Nodup →
    l.countP (fun a => decide (∃ b ∈ P, f a = some b)) = (P.map fun b => l.countP fun a => decide (f a = some b)).sum := by
  intro P
  induction P with
  | nil => intro _; simp
  | cons b P ih =>
    intro hn
    rw [List.nodup_cons] at hn
    rw [List.map_cons, List.sum_cons, ← ih hn.2]
    clear ih
    induction l with
    | nil => rfl
    | cons a l ih =>
      rw [List.countP_cons, List.countP_cons, List.countP_cons, ih]
      by_cases h1 : f a = some b
      · have h2 : ¬ ∃ b' ∈ P, f a = some b' := by
          rintro ⟨b', hb', h⟩
          rw [h1] at h
          injection h with h
          exact hn.1 (h ▸ hb')
        have h3 : ∃ b' ∈ b :: P, f a = some b' := ⟨b, by simp, h1⟩
        rw [decide_eq_true h3, decide_eq_true h1, decide_eq_false h2]
        simp only [if_true, Bool.false_eq_true, if_false]
        omega
      · by_cases h2 : ∃ b' ∈ P, f a = some b'
        · have h3 : ∃ b' ∈ b :: P, f a = some b' := by
            obtain ⟨b', h, h'⟩ := h2
            exact ⟨b', by simp [h], h'⟩
          rw [decide_eq_true h3, decide_eq_false h1, decide_eq_true h2]
          simp only [if_true, Bool.false_eq_true, if_false]
          omega
        · have h3 : ¬ ∃ b' ∈ b :: P, f a = some b' := by
            rintro ⟨b', h, h'⟩
            rcases List.mem_cons.1 h with rfl | h
            · exact h1 h'
            · exact h2 ⟨b', h, h'⟩
          rw [decide_eq_false h3, decide_eq_false h1, decide_eq_false h2]
          simp

/-- Hands with the same cards are made of the same cards. -/
theorem mem_of_ofCards {xs ys : List Nat} (hx : ∀ c ∈ xs, c < 52) (hy : ∀ c ∈ ys, c < 52) (h : ofCards xs = ofCards ys) (c : Nat) :
    c ∈ xs ↔ c ∈ ys := by
  by_cases hc : c < 52
  · have h1 := mask_testBit hx (s := c % 4) (r := c / 4) (by omega) (by omega)
    have h2 := mask_testBit hy (s := c % 4) (r := c / 4) (by omega) (by omega)
    rw [h, h2, show 4 * (c / 4) + c % 4 = c by omega] at h1
    simpa using h1.symm
  · exact ⟨fun h => absurd (hx c h) hc, fun h => absurd (hy c h) hc⟩

/-- The draws that produce the board `board ++ T`. -/
def Produces (k used : Nat) (board T : List Nat) (ds : Draws) : Prop :=
  randomizeBoard k used (ofCards board) ds = .ok (ofCards (board ++ T)) []

open Classical in
/-- The number of draw sequences of length `L` that produce the board `board ++ T`. -/
noncomputable def produceCount (k used : Nat) (board T : List Nat) (L : Nat) : Nat :=
  (drawLists L).countP fun ds => decide (Produces k used board T ds)

theorem produces_iff {k used : Nat} {board T : List Nat} (hb : ∀ c ∈ board, c < 52 ∧ used.testBit c = true)
    (hn : T.Nodup) (hT : ∀ c ∈ T, c < 52 ∧ used.testBit c = false) (ds : Draws) :
    Produces k used board T ds ↔ ∃ cs ∈ T.permutations, boardDraw k used ds = some cs := by
  unfold Produces
  rw [randomizeBoard_draw]
  constructor
  · rintro ⟨cs, h1, h2⟩
    obtain ⟨g1, g2, g3⟩ := boardDraw_ok _ _ _ h1
    refine ⟨cs, List.mem_permutations.2 ?_, h1⟩
    rw [← ofCards_append] at h2
    have hm := mem_of_ofCards (xs := board ++ T) (ys := board ++ cs) (by
      intro c hc; rcases List.mem_append.1 hc with hc | hc
      · exact (hb c hc).1
      · exact (hT c hc).1) (by
      intro c hc; rcases List.mem_append.1 hc with hc | hc
      · exact (hb c hc).1
      · exact (g3 c hc).1) h2
    rw [List.perm_ext_iff_of_nodup g2 hn]
    intro c
    have := hm c
    rw [List.mem_append, List.mem_append] at this
    constructor
    · intro hc
      rcases this.2 (Or.inr hc) with h | h
      · have h3 := (hb c h).2; rw [(g3 c hc).2] at h3; cases h3
      · exact h
    · intro hc
      rcases this.1 (Or.inr hc) with h | h
      · have h3 := (hb c h).2; rw [(hT c hc).2] at h3; cases h3
      · exact h
  · rintro ⟨cs, h1, h2⟩
    refine ⟨cs, h2, ?_⟩
    rw [← ofCards_append]
    exact ofCards_perm ((List.Perm.refl board).append (List.mem_permutations.1 h1).symm)

/-- The number of draw sequences of each length is the same for all completions of the board. -/
theorem produceCount_eq {k used : Nat} {board T : List Nat} (hb : ∀ c ∈ board, c < 52 ∧ used.testBit c = true) (hl : T.length = k)
    (hn : T.Nodup) (hT : ∀ c ∈ T, c < 52 ∧ used.testBit c = false) (L : Nat) :
    produceCount k used board T L = k.factorial * orderCount (usedCount used) k L := by
  unfold produceCount
  refine (List.countP_congr fun ds _ => ?_).trans
    ((countP_exists (fun ds => boardDraw k used ds) _ _ (List.nodup_permutations_iff.2 hn)).trans ?_)
  · have : ∀ {p q : Prop} {i : Decidable p} {j : Decidable q}, (p ↔ q) → (decide p = true ↔ decide q = true) := by
      intro p q i j h
      rw [decide_eq_true_iff, decide_eq_true_iff, h]
    apply this
    exact produces_iff hb hn hT ds
  have : ∀ cs ∈ T.permutations, ((drawLists L).countP fun ds => decide (boardDraw k used ds = some cs)) = orderCount (usedCount used) k L := by
    intro cs hcs
    have hp := List.mem_permutations.1 hcs
    exact order_count L k used cs (hp.length_eq.trans hl) (hp.nodup_iff.2 hn) (fun c hc => hT c (hp.mem_iff.1 hc))
  rw [List.map_congr_left this, List.map_const', List.sum_replicate, List.length_permutations, hl, smul_eq_mul]

/-! ## Probabilities -/

theorem orderCount_short : ∀ (L m k : Nat), L < k → orderCount m k L = 0 := by
  intro L
  induction L with
  | zero => intro m k h; cases k with
    | zero => omega
    | succ k => rfl
  | succ L ih =>
    intro m k h
    cases k with
    | zero => omega
    | succ k =>
      show m * _ + _ = 0
      rw [ih _ _ (by omega), ih _ _ (by omega)]; simp

theorem orderCount_min : ∀ (k m : Nat), orderCount m k k = 1 := by
  intro k
  induction k with
  | zero => intro m; rfl
  | succ k ih =>
    intro m
    show m * _ + _ = 1
    rw [orderCount_short _ _ _ (by omega), ih]; simp

/-- The probabilities of `k` particular cards in a particular order add up to `1 / ((52 - m) (51 - m) …)`. -/
theorem orderCount_hasSum : ∀ (k m : Nat), m + k ≤ 52 →
    HasSum (fun L => (orderCount m k L : ℝ) / 52 ^ L) (1 / ((52 - m).descFactorial k : ℝ)) := by
  intro k
  induction k with
  | zero =>
    intro m _
    have : (fun L => (orderCount m 0 L : ℝ) / 52 ^ L) = fun L => if L = 0 then 1 else 0 := by
      funext L
      cases L with
      | zero => simp [orderCount]
      | succ L => simp [orderCount]
    rw [this]
    simpa using hasSum_ite_eq (0 : ℕ) (1 : ℝ)
  | succ k ih =>
    intro m hm
    have hS := ih (m + 1) (by omega)
    set S : ℝ := 1 / ((52 - (m + 1)).descFactorial k : ℝ) with hSdef
    have hS0 : 0 ≤ S := by positivity
    have hm52 : (m : ℝ) < 52 := by
      have : m < 52 := by omega
      exact_mod_cast this
    let f : Nat → ℝ := fun L => (orderCount m (k + 1) L : ℝ) / 52 ^ L
    let g : Nat → ℝ := fun L => (orderCount (m + 1) k L : ℝ) / 52 ^ L
    have hf0 : ∀ L, 0 ≤ f L := fun L => by positivity
    have hg0 : ∀ L, 0 ≤ g L := fun L => by positivity
    have hrec : ∀ L, f (L + 1) = m / 52 * f L + 1 / 52 * g L := by
      intro L
      show ((m * orderCount m (k + 1) L + orderCount (m + 1) k L : ℕ) : ℝ) / 52 ^ (L + 1) = _
      push_cast
      simp only [f, g]
      rw [pow_succ]
      field_simp
    have hz : f 0 = 0 := by simp [f, orderCount]
    have hpart : ∀ n, ∑ i ∈ Finset.range n, f i ≤ S / (52 - m) := by
      intro n
      induction n with
      | zero => simp only [Finset.range_zero, Finset.sum_empty]; exact div_nonneg hS0 (by linarith)
      | succ n ihn =>
        rw [Finset.sum_range_succ', hz, add_zero]
        have e : ∑ i ∈ Finset.range n, f (i + 1) = m / 52 * ∑ i ∈ Finset.range n, f i + 1 / 52 * ∑ i ∈ Finset.range n, g i := by
          rw [Finset.mul_sum, Finset.mul_sum, ← Finset.sum_add_distrib]
          exact Finset.sum_congr rfl fun i _ => hrec i
        have hg : ∑ i ∈ Finset.range n, g i ≤ S := sum_le_hasSum _ (fun i _ => hg0 i) hS
        rw [e]
        have h52 : (0 : ℝ) < 52 - m := by linarith
        rw [le_div_iff₀ h52] at ihn ⊢
        have hmm : (0 : ℝ) ≤ m := Nat.cast_nonneg m
        nlinarith
    have hsum : Summable f := summable_of_sum_range_le hf0 hpart
    obtain ⟨F, hF⟩ := hsum
    have h1 : HasSum (fun L => f (L + 1)) (m / 52 * F + 1 / 52 * S) := by
      have := (hF.mul_left ((m : ℝ) / 52)).add (hS.mul_left (1 / 52 : ℝ))
      rw [show (fun L => f (L + 1)) = fun L => m / 52 * f L + 1 / 52 * g L from funext hrec]
      exact this
    have h2 : HasSum (fun L => f (L + 1)) F := by
      have := (hasSum_nat_add_iff' 1).2 hF
      simpa [hz] using this
    have h3 := h1.unique h2
    have hFe : F = 1 / ((52 - m).descFactorial (k + 1) : ℝ) := by
      have h52 : (0 : ℝ) < 52 - m := by linarith
      have : F = S / (52 - m) := by
        rw [eq_div_iff (ne_of_gt h52)]
        linarith
      rw [this, hSdef, show (52 - m).descFactorial (k + 1) = (52 - m) * (52 - (m + 1)).descFactorial k by
        rw [show 52 - m = (52 - (m + 1)) + 1 by omega, Nat.succ_descFactorial_succ]]
      rw [div_div, Nat.cast_mul, Nat.cast_sub (by omega : m ≤ 52), mul_comm]
      norm_num
    rw [← hFe]
    exact hF

end Pokers
