import Mathlib.Data.Set.Finite.Basic
import Mathlib.Data.Set.Finite.Lattice
import Verif.Proofs.McUniform
/-!
# The distribution of the random deals
-/
namespace Pokers
open CombinedRange Sim Spec

/-! ## The first deal -/

/-- The combos with these indexes can be dealt together. -/
def LegalIdx : List CombinedRange → Nat → List Nat → Prop
  | [], _, [] => True
  | [], _, _ :: _ => False
  | _ :: _, _, [] => False
  | cr :: crs, u, x :: xs => x < cr.size ∧ ∃ c, cr.combos[x]? = some c ∧ u &&& c.mask = 0 ∧ LegalIdx crs (u ||| c.mask) xs

/-- The outcome of an attempt: success or failure, and the values left over. -/
def tryDeal : List CombinedRange → Nat → Draws → Out Bool
  | [], _, ds => .ok true ds
  | _ :: _, _, [] => .more
  | cr :: crs, u, x :: xs =>
    if x < cr.size then
      match cr.combos[x]? with
      | none => .panic
      | some c => if u &&& c.mask ≠ 0 then .ok false xs else tryDeal crs (u ||| c.mask) xs
    else .more

theorem tryDeal_cons (cr : CombinedRange) (crs : List CombinedRange) (u x : Nat) (xs : Draws) :
    tryDeal (cr :: crs) u (x :: xs) = if x < cr.size then
      match cr.combos[x]? with
      | none => .panic
      | some c => if u &&& c.mask ≠ 0 then .ok false xs else tryDeal crs (u ||| c.mask) xs
      else .more := rfl

theorem dealLoop_try : ∀ (crs : List CombinedRange) (i : Nat) (w : Walk) (ds : Draws),
    (∀ a rest, tryDeal crs w.used ds = .ok a rest → ∃ w', dealLoop crs i w ds = .ok (a, w') rest ∧
      (∀ k < i, w'.indexes k = w.indexes k) ∧ (a = true → ∀ j < crs.length, ∃ h : j < ds.length, w'.indexes (i + j) = ds[j])) ∧
    (∀ a w' rest, dealLoop crs i w ds = .ok (a, w') rest → tryDeal crs w.used ds = .ok a rest) := by
  intro crs
  induction crs with
  | nil =>
    intro i w ds
    refine ⟨fun a rest h => ?_, fun a w' rest h => ?_⟩
    · injection h with h1 h2
      subst h1; subst h2
      exact ⟨w, rfl, fun _ _ => rfl, fun _ j hj => absurd hj (by simp)⟩
    · injection h with h1 h2
      injection h1 with h1 _
      subst h1; subst h2
      rfl
  | cons cr crs ih =>
    intro i w ds
    cases ds with
    | nil => exact ⟨(fun a rest h => by cases h), (fun a w' rest h => by cases h)⟩
    | cons x xs =>
      have e1 : tryDeal (cr :: crs) w.used (x :: xs) = if x < cr.size then
          match cr.combos[x]? with
          | none => .panic
          | some c => if w.used &&& c.mask ≠ 0 then .ok false xs else tryDeal crs (w.used ||| c.mask) xs
          else .more := rfl
      have e2 : dealLoop (cr :: crs) i w (x :: xs) = match (if x < cr.size then Out.ok x xs else .more) with
          | .ok idx ds =>
            match cr.combos[idx]? with
            | none => .panic
            | some combo =>
              if w.used &&& combo.mask ≠ 0 then .ok (false, { w with indexes := Function.update w.indexes i idx }) ds
              else dealLoop crs (i + 1) { Walk.write cr combo { w with indexes := Function.update w.indexes i idx } with
                used := (Walk.write cr combo { w with indexes := Function.update w.indexes i idx }).used ||| combo.mask } ds
          | .more => .more
          | .panic => .panic := rfl
      rw [e1, e2]
      by_cases hx : x < cr.size
      · rw [if_pos hx, if_pos hx]
        simp only
        cases hc : cr.combos[x]? with
        | none => exact ⟨(fun a rest h => by cases h), (fun a w' rest h => by cases h)⟩
        | some c =>
          simp only
          by_cases hu : w.used &&& c.mask ≠ 0
          · rw [if_pos hu, if_pos hu]
            refine ⟨fun a rest h => ?_, fun a w' rest h => ?_⟩
            · injection h with h1 h2
              subst h1; subst h2
              exact ⟨_, rfl, fun k hk => Function.update_of_ne (by omega) _ _, fun h => by cases h⟩
            · injection h with h1 h2
              injection h1 with h1 _
              subst h1; subst h2
              rfl
          · rw [if_neg hu, if_neg hu]
            obtain ⟨g1, g2⟩ := ih (i + 1) { Walk.write cr c { w with indexes := Function.update w.indexes i x } with
                used := (Walk.write cr c { w with indexes := Function.update w.indexes i x }).used ||| c.mask } xs
            simp only [write_used] at g1 g2 ⊢
            refine ⟨fun a rest h => ?_, fun a w' rest h => g2 a w' rest h⟩
            obtain ⟨w', h1, h2, h3⟩ := g1 a rest h
            have hi : ∀ k < i + 1, w'.indexes k = Function.update w.indexes i x k := by
              intro k hk
              rw [h2 k hk]
              show (Walk.write cr c _).indexes k = _
              rw [write_indexes]
            refine ⟨w', h1, fun k hk => by rw [hi k (by omega), Function.update_of_ne (by omega)], fun ha j hj => ?_⟩
            cases j with
            | zero => exact ⟨by simp, by rw [Nat.add_zero, hi i (by omega), Function.update_self]; rfl⟩
            | succ j =>
              obtain ⟨hl, hj'⟩ := h3 ha j (by simpa using hj)
              refine ⟨by simpa using hl, ?_⟩
              rw [show i + (j + 1) = i + 1 + j by omega, hj']; rfl
      · rw [if_neg hx, if_neg hx]
        exact ⟨(fun a rest h => by cases h), (fun a w' rest h => by cases h)⟩

/-- A successful attempt draws exactly the indexes of the combos dealt. -/
theorem tryDeal_true : ∀ (crs : List CombinedRange) (u : Nat) (ds rest : Draws), tryDeal crs u ds = .ok true rest ↔
    ∃ x, ds = x ++ rest ∧ LegalIdx crs u x := by
  intro crs
  induction crs with
  | nil =>
    intro u ds rest
    constructor
    · intro h; injection h with _ h; exact ⟨[], h, trivial⟩
    · rintro ⟨x, h1, h2⟩
      cases x with
      | nil => rw [h1]; rfl
      | cons _ _ => exact h2.elim
  | cons cr crs ih =>
    intro u ds rest
    constructor
    · intro h
      cases ds with
      | nil => cases h
      | cons y ys =>
        rw [tryDeal_cons] at h
        by_cases hy : y < cr.size
        · rw [if_pos hy] at h
          cases hc : cr.combos[y]? with
          | none => rw [hc] at h; cases h
          | some c =>
            rw [hc] at h
            simp only at h
            by_cases hu : u &&& c.mask ≠ 0
            · rw [if_pos hu] at h; cases h
            · rw [if_neg hu] at h
              obtain ⟨x, h1, h2⟩ := (ih _ _ _).1 h
              exact ⟨y :: x, by rw [h1]; rfl, hy, c, hc, not_not.1 hu, h2⟩
        · rw [if_neg hy] at h; cases h
    · rintro ⟨x, h1, h2⟩
      cases x with
      | nil => exact h2.elim
      | cons y x =>
        obtain ⟨hy, c, hc, hu, h3⟩ := h2
        rw [h1, List.cons_append, tryDeal_cons, if_pos hy, hc]
        simp only
        rw [if_neg (not_not.2 hu)]
        exact (ih _ _ _).2 ⟨x, rfl, h3⟩

/-- A failed attempt does not look at later values. -/
theorem tryDeal_false : ∀ (crs : List CombinedRange) (u : Nat) (ds rest : Draws), tryDeal crs u ds = .ok false rest →
    ∃ x, ds = x ++ rest ∧ ∀ rest', tryDeal crs u (x ++ rest') = .ok false rest' := by
  intro crs
  induction crs with
  | nil => intro u ds rest h; injection h with h _; cases h
  | cons cr crs ih =>
    intro u ds rest h
    cases ds with
    | nil => cases h
    | cons y ys =>
      rw [tryDeal_cons] at h
      by_cases hy : y < cr.size
      · rw [if_pos hy] at h
        cases hc : cr.combos[y]? with
        | none => rw [hc] at h; cases h
        | some c =>
          rw [hc] at h
          simp only at h
          have e : ∀ zs, tryDeal (cr :: crs) u (y :: zs) = if u &&& c.mask ≠ 0 then .ok false zs else tryDeal crs (u ||| c.mask) zs := by
            intro zs
            rw [tryDeal_cons, if_pos hy, hc]
          by_cases hu : u &&& c.mask ≠ 0
          · rw [if_pos hu] at h
            injection h with _ h
            refine ⟨[y], by rw [h]; rfl, fun rest' => ?_⟩
            rw [List.singleton_append, e, if_pos hu]
          · rw [if_neg hu] at h
            obtain ⟨x, h1, h2⟩ := ih _ _ _ h
            refine ⟨y :: x, by rw [h1]; rfl, fun rest' => ?_⟩
            rw [List.cons_append, e, if_neg hu, h2]
      · rw [if_neg hy] at h; cases h

theorem LegalIdx.length : ∀ {crs : List CombinedRange} {u : Nat} {x : List Nat}, LegalIdx crs u x → x.length = crs.length := by
  intro crs
  induction crs with
  | nil => intro u x h; cases x with
    | nil => rfl
    | cons _ _ => exact h.elim
  | cons cr crs ih => intro u x h; cases x with
    | nil => exact h.elim
    | cons y x =>
      obtain ⟨_, c, _, _, h⟩ := h
      simp [ih h]

/-- The indexes of the walk are the list `x`. -/
def Points (w : Walk) (x : List Nat) : Prop := ∀ j (hj : j < x.length), w.indexes j = x[j]

theorem Points.unique {w : Walk} {x y : List Nat} (hx : Points w x) (hy : Points w y) (h : x.length = y.length) : x = y := by
  apply List.ext_getElem h
  intro i h1 h2
  rw [← hx i h1, ← hy i h2]

/-- A successful run of the attempts draws values of failed attempts, which do not depend on the deal reached, and then the indexes
of the deal reached. -/
theorem attempts_draws (s : Sim) : ∀ (k : Nat) (w : Walk) (ds rest : Draws) (w' : Walk), attempts s k w ds = .ok (true, w') rest →
    ∃ p x, ds = p ++ x ++ rest ∧ LegalIdx s.combinedRanges (s.boardMask ||| s.deadMask) x ∧ Points w' x ∧
      ∀ w2 y, LegalIdx s.combinedRanges (s.boardMask ||| s.deadMask) y → ∀ rest',
        ∃ w'', attempts s k w2 (p ++ y ++ rest') = .ok (true, w'') rest' ∧ Points w'' y := by
  intro k
  induction k with
  | zero => intro w ds rest w' h; injection h with h _; injection h with h _; cases h
  | succ k ih =>
    intro w ds rest w' h
    have e : ∀ w ds, attempts s (k + 1) w ds = match dealLoop s.combinedRanges 0 { w with used := s.boardMask ||| s.deadMask } ds with
      | .ok (true, w) ds => .ok (true, w) ds
      | .ok (false, w) ds => attempts s k w ds
      | .more => .more
      | .panic => .panic := fun _ _ => rfl
    have hdl := fun (w : Walk) ds => dealLoop_try s.combinedRanges 0 { w with used := s.boardMask ||| s.deadMask } ds
    rw [e] at h
    cases ho : dealLoop s.combinedRanges 0 { w with used := s.boardMask ||| s.deadMask } ds with
    | more => rw [ho] at h; cases h
    | panic => rw [ho] at h; cases h
    | ok a ds1 =>
      obtain ⟨ok, w1⟩ := a
      have ht := (hdl w ds).2 _ _ _ ho
      rw [ho] at h
      cases ok with
      | true =>
        injection h with h1 h2
        injection h1 with _ h1
        subst h1; subst h2
        obtain ⟨x, g1, g2⟩ := (tryDeal_true _ _ _ _).1 ht
        refine ⟨[], x, g1, g2, ?_, fun w2 y hy rest' => ?_⟩
        · obtain ⟨w2, q1, _, q3⟩ := (hdl w ds).1 _ _ ht
          rw [ho] at q1
          injection q1 with q1 _
          injection q1 with _ q1
          subst q1
          intro j hj
          obtain ⟨hl, hj'⟩ := q3 rfl j (by rw [← g2.length]; exact hj)
          rw [Nat.zero_add] at hj'
          rw [hj']
          simp only [g1]
          rw [List.getElem_append_left hj]
        · have ht' := (tryDeal_true s.combinedRanges (s.boardMask ||| s.deadMask) (y ++ rest') rest').2 ⟨y, rfl, hy⟩
          obtain ⟨w2, q1, _, q3⟩ := (hdl w2 (y ++ rest')).1 _ _ ht'
          refine ⟨w2, by rw [List.nil_append, e, q1], fun j hj => ?_⟩
          obtain ⟨hl, hj'⟩ := q3 rfl j (by rw [← hy.length]; exact hj)
          rw [Nat.zero_add] at hj'
          rw [hj', List.getElem_append_left hj]
      | false =>
        simp only at h
        obtain ⟨q, h1, h2⟩ := tryDeal_false _ _ _ _ ht
        obtain ⟨p, x, g1, g2, g3, g4⟩ := ih _ _ _ _ h
        refine ⟨q ++ p, x, by rw [h1, g1]; simp, g2, g3, fun w2 y hy rest' => ?_⟩
        obtain ⟨w3, q1, _, _⟩ := (hdl w2 (q ++ (p ++ y ++ rest'))).1 _ _ (h2 (p ++ y ++ rest'))
        rw [show q ++ p ++ y ++ rest' = q ++ (p ++ y ++ rest') by simp, e, q1]
        exact g4 w3 y hy rest'

/-! ## The steps of the walk -/

theorem backPos_back {n k m x : Nat} (hx : x ≤ m) (hm : m ≤ n) : backPos n (backPos n k x) (m - x) = backPos n k m := by
  unfold backPos
  by_cases h1 : x ≤ k
  · rw [if_pos h1]
    by_cases h2 : m ≤ k
    · rw [if_pos (by omega), if_pos h2]; omega
    · rw [if_neg (by omega), if_neg h2]; omega
  · rw [if_neg h1]
    rw [if_neg (by omega : ¬ m ≤ k)]
    by_cases h3 : m - x ≤ k + n - x
    · rw [if_pos h3]; omega
    · omega

theorem backPos_inj {n k k' m : Nat} (hk : k < n) (hk' : k' < n) (hm : m ≤ n) (h : backPos n k m = backPos n k' m) : k = k' := by
  unfold backPos at h
  by_cases h1 : m ≤ k <;> by_cases h2 : m ≤ k'
  · rw [if_pos h1, if_pos h2] at h; omega
  · rw [if_pos h1, if_neg h2] at h; omega
  · rw [if_neg h1, if_pos h2] at h; omega
  · rw [if_neg h1, if_neg h2] at h; omega

/-- Every place is reached by going back from some place. -/
theorem backPos_from {n k m : Nat} (hk : k < n) (hm : m ≤ n) : ∃ k' < n, backPos n k' m = k := by
  by_cases h : k + m < n
  · exact ⟨k + m, h, by unfold backPos; rw [if_pos (by omega)]; omega⟩
  · refine ⟨k + m - n, by omega, ?_⟩
    unfold backPos
    by_cases h2 : m ≤ k + m - n
    · rw [if_pos h2]; omega
    · rw [if_neg h2]; omega

theorem fits_lt {cr : CombinedRange} (hs : cr.size = cr.combos.length) {used k : Nat} (h : Fits cr used k) : k < cr.size := by
  obtain ⟨c, hc, _⟩ := h
  rw [hs]
  by_contra hcon
  rw [List.getElem?_eq_none (by omega)] at hc
  cases hc

/-- The search maps different compatible combos to different compatible combos. -/
theorem redealLoop_inj {cr : CombinedRange} (hs : cr.size = cr.combos.length) {used k k' : Nat} (hk : Fits cr used k)
    (hk' : Fits cr used k') (h : redealLoop cr used cr.size k = redealLoop cr used cr.size k') : k = k' := by
  have main : ∀ {k k'}, Fits cr used k → Fits cr used k' → ∀ m m', 0 < m → m ≤ m' → m' ≤ cr.size →
      backPos cr.size k m = backPos cr.size k' m' → (∀ x, 0 < x → x < m' → ¬ Fits cr used (backPos cr.size k' x)) → k = k' := by
    intro k k' hk hk' m m' h0 h1 h2 h3 h4
    have hkl := fits_lt hs hk
    have hkl' := fits_lt hs hk'
    have e := backPos_back (k := k') (n := cr.size) (x := m' - m) (m := m') (by omega) h2
    rw [show m' - (m' - m) = m by omega, ← h3] at e
    have hb : backPos cr.size k' (m' - m) < cr.size := by unfold backPos; split <;> omega
    have e2 := backPos_inj hb hkl (by omega) e
    by_cases hmm : m' = m
    · rw [hmm, Nat.sub_self] at e2
      rw [← e2]; unfold backPos; rw [if_pos (by omega)]; rfl
    · exact absurd (e2 ▸ hk) (h4 (m' - m) (by omega) (by omega))
  obtain ⟨m, a1, a2, a3, a4, a5⟩ := redealLoop_round hs (fits_lt hs hk) hk
  obtain ⟨m', b1, b2, b3, b4, b5⟩ := redealLoop_round hs (fits_lt hs hk') hk'
  rw [a3, b3] at h
  injection h with h
  rcases le_total m m' with hm | hm
  · exact main hk hk' m m' a1 hm b2 h b5
  · exact (main hk' hk m' m b1 hm a2 h.symm a5).symm

theorem redealLoop_maps {cr : CombinedRange} (hs : cr.size = cr.combos.length) {used k : Nat} (hk : Fits cr used k) :
    ∃ k', redealLoop cr used cr.size k = some k' ∧ Fits cr used k' := by
  obtain ⟨m, _, _, a3, a4, _⟩ := redealLoop_round hs (fits_lt hs hk) hk
  exact ⟨_, a3, a4⟩

/-- The search reaches every compatible combo. -/
theorem redealLoop_surj {cr : CombinedRange} (hs : cr.size = cr.combos.length) {used k' : Nat} (hk' : Fits cr used k') :
    ∃ k, Fits cr used k ∧ redealLoop cr used cr.size k = some k' := by
  classical
  let S : Finset Nat := (Finset.range cr.size).filter (Fits cr used)
  have hS : ∀ k, k ∈ S ↔ Fits cr used k := fun k => by
    rw [Finset.mem_filter, Finset.mem_range]
    exact ⟨fun h => h.2, fun h => ⟨fits_lt hs h, h⟩⟩
  let f : Nat → Nat := fun k => (redealLoop cr used cr.size k).getD 0
  have hf : ∀ k ∈ S, redealLoop cr used cr.size k = some (f k) ∧ f k ∈ S := by
    intro k hk
    obtain ⟨k2, h1, h2⟩ := redealLoop_maps hs ((hS k).1 hk)
    have : f k = k2 := by show (redealLoop cr used cr.size k).getD 0 = _; rw [h1]; rfl
    rw [this]
    exact ⟨h1, (hS k2).2 h2⟩
  obtain ⟨k, hk, e⟩ := Finset.surj_on_of_inj_on_of_card_le (s := S) (t := S) (fun k _ => f k) (fun k hk => (hf k hk).2)
    (fun a b ha hb h => redealLoop_inj hs ((hS a).1 ha) ((hS b).1 hb) (by rw [(hf a ha).1, (hf b hb).1, h])) le_rfl k' ((hS k').2 hk')
  exact ⟨k, (hS k).1 hk, by rw [(hf k hk).1, ← e]⟩

/-- A step of the walk, in terms of the indexes. -/
theorem redeal_index {crs : List CombinedRange} (hok : CrsOk crs) {u : Nat} {w : Walk} {picks : List JointCombo}
    (h : WalkOk crs u w picks) {i : Nat} (hi : i < crs.length) :
    Fits crs[i] (othersUsed u picks i) (w.indexes i) ∧
    ∃ w' idx c, redeal crs[i] i w = some w' ∧ redealLoop crs[i] (othersUsed u picks i) crs[i].size (w.indexes i) = some idx ∧
      w'.indexes = Function.update w.indexes i idx ∧ crs[i].combos[idx]? = some c ∧ WalkOk crs u w' (picks.set i c) := by
  have hi' : i < picks.length := by rw [h.len]; exact hi
  have hsz := hok.size _ (List.getElem_mem hi)
  obtain ⟨r1, r2, r3⟩ := h.remove hi'
  have hidx := h.index i hi
  rw [List.getElem?_eq_getElem hi'] at hidx
  have hfit : Fits crs[i] (othersUsed u picks i) (w.indexes i) := ⟨picks[i], hidx, by rw [Nat.and_comm]; exact r3⟩
  refine ⟨hfit, ?_⟩
  obtain ⟨idx, hloop, c, hc, hcf⟩ := redealLoop_maps hsz hfit
  refine ⟨_, idx, c, ?_, hloop, ?_, hc, h.replace hok hi hc hcf⟩
  · unfold redeal
    rw [hidx]
    show (subC w.used picks[i].mask).bind _ = _
    unfold subC
    rw [if_pos r1, r2]
    show (redealLoop crs[i] (othersUsed u picks i) crs[i].size (w.indexes i)).bind _ = _
    rw [hloop]
    show (crs[i].combos[idx]?).bind _ = _
    rw [hc]
    rfl
  · show Function.update (Walk.write crs[i] c _).indexes i idx = _
    rw [write_indexes]

/-- The indexes determine the combos. -/
theorem WalkOk.picks_eq {crs : List CombinedRange} {u : Nat} {w w' : Walk} {picks picks' : List JointCombo}
    (h : WalkOk crs u w picks) (h' : WalkOk crs u w' picks') {P : Nat → Prop} (he : ∀ i, P i → i < crs.length → w.indexes i = w'.indexes i)
    {i : Nat} (hi : P i) : picks[i]? = picks'[i]? := by
  by_cases hl : i < crs.length
  · rw [← h.index i hl, ← h'.index i hl, he i hi hl]
  · rw [List.getElem?_eq_none (by rw [h.len]; omega), List.getElem?_eq_none (by rw [h'.len]; omega)]

theorem othersUsed_congr {u : Nat} {picks picks' : List JointCombo} {i : Nat} (h : ∀ j, j ≠ i → picks[j]? = picks'[j]?) :
    othersUsed u picks i = othersUsed u picks' i := by
  unfold othersUsed
  congr 1
  congr 1
  · apply List.ext_getElem?
    intro j
    rw [List.getElem?_take, List.getElem?_take]
    by_cases hj : j < i
    · rw [if_pos hj, if_pos hj]; exact h j (by omega)
    · rw [if_neg hj, if_neg hj]
  · apply List.ext_getElem?
    intro j
    rw [List.getElem?_drop, List.getElem?_drop]
    exact h _ (by omega)

/-- Every deal is reached by one step of the walk, with a given combined range, from exactly one deal. -/
theorem redeal_bijective {crs : List CombinedRange} (hok : CrsOk crs) {u : Nat} {i : Nat} (hi : i < crs.length) :
    (∀ w picks, WalkOk crs u w picks → ∃ w' picks', redeal crs[i] i w = some w' ∧ WalkOk crs u w' picks') ∧
    (∀ w' picks', WalkOk crs u w' picks' → ∃ w picks w'', WalkOk crs u w picks ∧ redeal crs[i] i w = some w'' ∧ w''.indexes = w'.indexes) ∧
    (∀ w₁ w₂ picks₁ picks₂ w₁' w₂', WalkOk crs u w₁ picks₁ → WalkOk crs u w₂ picks₂ → redeal crs[i] i w₁ = some w₁' →
      redeal crs[i] i w₂ = some w₂' → (∀ j < crs.length, w₁'.indexes j = w₂'.indexes j) → ∀ j < crs.length, w₁.indexes j = w₂.indexes j) := by
  have hsz := hok.size _ (List.getElem_mem hi)
  refine ⟨fun w picks h => ?_, fun w' picks' h => ?_, fun w₁ w₂ picks₁ picks₂ w₁' w₂' h₁ h₂ r₁ r₂ he j hj => ?_⟩
  · obtain ⟨_, w', _, c, h1, _, _, _, h2⟩ := redeal_index hok h hi
    exact ⟨w', _, h1, h2⟩
  · obtain ⟨hfit, _⟩ := redeal_index hok h hi
    obtain ⟨k, ⟨c, hc, hcf⟩, hloop⟩ := redealLoop_surj hsz hfit
    have hw := h.replace hok hi hc hcf
    obtain ⟨hfit2, w'', idx, c2, g1, g2, g3, g4, g5⟩ := redeal_index hok hw hi
    refine ⟨_, _, w'', hw, g1, ?_⟩
    rw [g3]
    have e1 : (let w := ({ w' with used := othersUsed u picks' i ||| c.mask } : Walk).write crs[i] c
       ({ w with indexes := Function.update w.indexes i k } : Walk)).indexes = Function.update w'.indexes i k := by
      show Function.update (Walk.write crs[i] c _).indexes i k = _
      rw [write_indexes]
    rw [e1, Function.update_idem]
    rw [e1, Function.update_self] at g2
    have e2 : othersUsed u (picks'.set i c) i = othersUsed u picks' i := othersUsed_congr fun j hj => by
      rw [List.getElem?_set_ne hj.symm]
    rw [e2, hloop] at g2
    injection g2 with g2
    rw [← g2, Function.update_eq_self]
  · obtain ⟨f1, v1, i1, c1, a1, a2, a3, a4, a5⟩ := redeal_index hok h₁ hi
    obtain ⟨f2, v2, i2, c2, b1, b2, b3, b4, b5⟩ := redeal_index hok h₂ hi
    rw [a1] at r₁; injection r₁ with r₁; subst r₁
    rw [b1] at r₂; injection r₂ with r₂; subst r₂
    have hoff : ∀ j, j ≠ i → j < crs.length → w₁.indexes j = w₂.indexes j := by
      intro j hj hl
      have := he j hl
      rwa [a3, b3, Function.update_of_ne hj, Function.update_of_ne hj] at this
    have hat : i1 = i2 := by
      have := he i hi
      rwa [a3, b3, Function.update_self, Function.update_self] at this
    by_cases hj' : j = i
    · subst hj'
      have e := othersUsed_congr (u := u) (i := j) fun k hk => WalkOk.picks_eq h₁ h₂ (P := fun k => k ≠ j) hoff hk
      rw [← e] at f2 b2
      exact redealLoop_inj hsz f1 f2 (by rw [a2, b2, hat])
    · exact hoff j hj' hj

end Pokers
