import Verif.Proofs.FloatStep
/-!
# The published numbers of the floating-point model
-/
namespace Pokers

/-- Both are not numbers, or they agree up to the factor `lam ^ k`. -/
def OptRel (k : Nat) : Option ℚ → Option ℚ → Prop
  | none, none => True
  | some a, some b => Rel k a b
  | _, _ => False

theorem fl_one : fl 1 = 1 := by simpa using fl_nat (n := 1) (by norm_num)

theorem one_le_fl {n : Nat} (h : 0 < n) : 1 ≤ fl n := by
  have := fl_mono (x := 1) (y := n) (by norm_num) (by exact_mod_cast h)
  rwa [fl_one] at this

theorem fl_pow62 : fl (2 ^ 62) = 2 ^ 62 := fl_of_isF64 ⟨1, 62, by norm_num, by norm_num, by norm_num⟩

theorem fl_le_pow62 {n : Nat} (h : n < 2 ^ 62) : fl n ≤ 2 ^ 62 := by
  have : (n : ℚ) ≤ 2 ^ 62 := by exact_mod_cast h.le
  have := fl_mono (by positivity) this
  rwa [fl_pow62] at this

theorem normal_quot {x : ℚ} {t : Nat} (hx : x = 0 ∨ 1 / 16 ≤ x) (h0 : 0 < t) (ht : t < 2 ^ 62) : Normal (x / fl t) := by
  rcases hx with rfl | hx
  · left; simp
  · refine normal_of_le (tiny_le (n := 66) (by omega)) ?_
    have h1 := one_le_fl h0
    have h2 := fl_le_pow62 ht
    rw [le_div_iff₀ (by linarith)]
    calc 1 / 2 ^ 66 * fl t ≤ 1 / 2 ^ 66 * 2 ^ 62 := by gcongr
      _ = 1 / 16 := by norm_num
      _ ≤ x := hx

/-- A quotient of two numbers that are known up to rounding. -/
theorem quot_rel {a f : ℚ} {t k : Nat} (ha : 0 ≤ a) (hr : Rel k a f) (hf : f = 0 ∨ 1 / 16 ≤ f) (ht : t < 2 ^ 62) :
    OptRel (k + 2) (fdiv a t) (ffdiv f (fl t)) := by
  have hf0 : 0 ≤ f := by
    rcases hf with h | h
    · exact h.ge
    · linarith
  rcases Nat.eq_zero_or_pos t with rfl | hp
  · have : fl ((0 : Nat) : ℚ) = 0 := by simp [fl_zero]
    unfold fdiv ffdiv
    rw [this, if_pos rfl, if_pos Nat.cast_zero]
    trivial
  · have h1 := one_le_fl hp
    have hq : (0 : ℚ) < t := by exact_mod_cast hp
    unfold fdiv ffdiv
    rw [if_neg hq.ne', if_neg (by linarith)]
    have := (hr.div hq (by linarith) hf0 ha (Rel.fl (normal_nat t))).trans (Rel.fl (normal_quot hf hp ht))
    exact this

theorem nat_big (n : Nat) : fl n = 0 ∨ 1 / 16 ≤ fl n := by
  rcases Nat.eq_zero_or_pos n with rfl | h
  · left; simp [fl_zero]
  · right; have := one_le_fl h; linarith

theorem rate_rel (w : Nat) {t : Nat} (ht : t < 2 ^ 62) : OptRel 3 (fdiv w t) (ffdiv (fl w) (fl t)) :=
  quot_rel (by positivity) (Rel.fl (normal_nat w)) (nat_big w) ht

theorem equity_rel {w t k : Nat} {c f : ℚ} (h : Near k c f) (ht : t < 2 ^ 62) :
    OptRel (k + 4) (fdiv ((w : ℚ) + c) t) (ffdiv (fl (fl w + f)) (fl t)) := by
  have hw : (0 : ℚ) ≤ w := by positivity
  have hw' := fl_nonneg hw
  have hbig : fl w + f = 0 ∨ 1 / 16 ≤ fl w + f := by
    have := h.pos
    rcases nat_big w with e | e
    · rcases h.big with e' | e'
      · left; linarith
      · right; linarith
    · right; linarith
  have hn : Normal (fl w + f) := by
    rcases hbig with e | e
    · exact Or.inl e
    · exact normal_big e
  have r := (((Rel.fl (normal_nat w)).mono hw hw' (by omega : 1 ≤ k + 1)).add (h.rel.mono h.nonneg h.pos (by omega : k ≤ k + 1))).trans
    (Rel.fl hn)
  refine quot_rel (add_nonneg hw h.nonneg) r ?_ ht
  rcases hbig with e | e
  · left; rw [e, fl_zero]
  · right; exact fl_ge e

/-- Quotients of exact numbers are rounded once. -/
theorem quot_exact {a f : ℚ} {t : Nat} (h : f = a) (ht : t ≤ 2 ^ 53) : ffdiv f (fl t) = (fdiv a t).map fl := by
  unfold fdiv ffdiv
  rw [fl_nat ht, h]
  split <;> rfl

theorem rate_exact {w t : Nat} (hw : w ≤ 2 ^ 53) (ht : t ≤ 2 ^ 53) : ffdiv (fl w) (fl t) = (fdiv w t).map fl :=
  quot_exact (fl_nat hw) ht

theorem equity_exact {w k t : Nat} {c f : ℚ} (h : Half c f) (hc : c ≤ k) (hle : w + k ≤ t) (ht : t ≤ 2 ^ 52) :
    ffdiv (fl (fl w + f)) (fl t) = (fdiv ((w : ℚ) + c) t).map fl := by
  apply quot_exact _ (by omega)
  have hk : (k : ℚ) ≤ 2 ^ 52 := by exact_mod_cast (by omega)
  rw [h.exact (hc.trans hk), fl_nat (by omega)]
  obtain ⟨m, rfl⟩ := h.half
  have : w * 2 + m ≤ 2 ^ 53 := by
    have h1 : (m : ℚ) ≤ ((2 * k : Nat) : ℚ) := by push_cast; linarith
    have h2 : m ≤ 2 * k := by exact_mod_cast h1
    omega
  have := fl_half this
  have e : (w : ℚ) + (m : ℚ) / 2 = ((w * 2 + m : Nat) : ℚ) / 2 := by push_cast; ring
  rw [e, this]

/-- The record `v` published by the floating-point model belongs to the record `u` of the exact model. -/
structure Published (n : Nat) (u v : UnitResults) : Prop where
  wins : v.wins = u.wins
  ties : v.ties = u.ties
  total : v.total = u.total
  weight : v.weight = u.weight
  rank : v.rank = u.rank
  draw : v.draw = u.draw
  valid : v.valid = u.valid
  shares : u.total < 2 ^ 62 → Rel u.ties u.correctedTies v.correctedTies
  equity : u.total < 2 ^ 62 → OptRel (u.ties + 4) u.equity v.equity
  winrate : u.total < 2 ^ 62 → OptRel 3 u.winrate v.winrate
  tierate : u.total < 2 ^ 62 → OptRel (u.ties + 3) u.tierate v.tierate
  two : n = 2 → u.total ≤ 2 ^ 52 → v.correctedTies = u.correctedTies ∧ v.equity = u.equity.map fl ∧ v.winrate = u.winrate.map fl ∧
    v.tierate = u.tierate.map fl

theorem OptRel.mono {k l : Nat} {x y : Option ℚ} (hx : ∀ a, x = some a → 0 ≤ a) (hy : ∀ a, y = some a → 0 ≤ a) (h : OptRel k x y)
    (hkl : k ≤ l) : OptRel l x y := by
  cases x with
  | none => cases y with
    | none => trivial
    | some b => exact h
  | some a => cases y with
    | none => exact h
    | some b => exact Rel.mono (hx a rfl) (hy b rfl) h hkl

theorem OptRel.zero (k : Nat) : OptRel k (some 0) (some 0) := Rel.refl k le_rfl

theorem published_default (n : Nat) : Published n UnitResults.default UnitResults.default :=
  ⟨rfl, rfl, rfl, rfl, rfl, rfl, rfl, fun _ => Rel.refl _ le_rfl, fun _ => OptRel.zero _, fun _ => OptRel.zero _, fun _ => OptRel.zero _,
    fun _ _ => ⟨rfl, by rw [show UnitResults.default.equity = some 0 from rfl, Option.map_some, fl_zero],
      by rw [show UnitResults.default.winrate = some 0 from rfl, Option.map_some, fl_zero],
      by rw [show UnitResults.default.tierate = some 0 from rfl, Option.map_some, fl_zero]⟩⟩

/-! ## Hands -/

/-- A rate: not computed yet, or computed from the counters. -/
def RateClose (w t : Nat) (x y : Option ℚ) : Prop :=
  (x = some 0 ∧ y = some 0) ∨ (x = fdiv w t ∧ y = ffdiv (fl w) (fl t))

/-- The records of a hand while the final data are generated. -/
structure FClose (n : Nat) (u v : UnitResults) : Prop where
  close : UClose n u v
  eq : EqClose u v
  le : u.wins + u.ties ≤ u.total
  win : RateClose u.wins u.total u.winrate v.winrate
  tie : RateClose u.ties u.total u.tierate v.tierate

theorem RateClose.rel {w t : Nat} {x y : Option ℚ} (h : RateClose w t x y) (ht : t < 2 ^ 62) : OptRel 3 x y := by
  rcases h with ⟨rfl, rfl⟩ | ⟨rfl, rfl⟩
  · exact OptRel.zero _
  · exact rate_rel w ht

theorem RateClose.exact {w t : Nat} {x y : Option ℚ} (h : RateClose w t x y) (hw : w ≤ 2 ^ 53) (ht : t ≤ 2 ^ 53) : y = x.map fl := by
  rcases h with ⟨rfl, rfl⟩ | ⟨rfl, rfl⟩
  · rw [Option.map_some, fl_zero]
  · exact rate_exact hw ht

theorem RateClose.nonneg {w t : Nat} {x y : Option ℚ} (h : RateClose w t x y) : (∀ a, x = some a → 0 ≤ a) ∧ (∀ a, y = some a → 0 ≤ a) := by
  rcases h with ⟨rfl, rfl⟩ | ⟨rfl, rfl⟩
  · constructor <;> (intro a ha; rw [← Option.some.inj ha])
  · constructor
    · intro a ha
      unfold fdiv at ha
      split at ha
      · cases ha
      · rw [← Option.some.inj ha]; positivity
    · intro a ha
      unfold ffdiv at ha
      split at ha
      · cases ha
      · rw [← Option.some.inj ha]
        exact fl_nonneg (div_nonneg (fl_nonneg (by positivity)) (fl_nonneg (by positivity)))

theorem FClose.published {n : Nat} {u v : UnitResults} (h : FClose n u v) : Published n u v := by
  obtain ⟨hc, he, hle, hw, ht⟩ := h
  refine ⟨hc.wins, hc.ties, hc.total, hc.weight, hc.rank, hc.draw, hc.valid, fun _ => hc.near.rel, fun hlt => ?_, fun hlt => hw.rel hlt,
    fun hlt => (ht.rel hlt).mono ht.nonneg.1 ht.nonneg.2 (by omega), fun hn h52 => ⟨?_, ?_, hw.exact (by omega) (by omega),
      ht.exact (by omega) (by omega)⟩⟩
  · rcases he with ⟨e1, e2⟩ | ⟨e1, e2⟩
    · rw [e1, e2]; exact OptRel.zero _
    · rw [e1, e2, hc.wins, hc.total]; exact equity_rel hc.near hlt
  · apply (hc.half hn).exact
    have : (u.ties : ℚ) ≤ 2 ^ 52 := by exact_mod_cast (by omega)
    exact hc.near.le.trans this
  · rcases he with ⟨e1, e2⟩ | ⟨e1, e2⟩
    · rw [e1, e2, Option.map_some, fl_zero]
    · rw [e1, e2, hc.wins, hc.total]
      exact equity_exact (hc.half hn) hc.near.le hle h52

/-! ## Combos and tables -/

/-- Sums over hands: wins, ties, total and shares. -/
structure SumClose (n w t T : Nat) (c f : ℚ) : Prop where
  near : Near t c f
  half : n = 2 → Half c f
  le : w + t ≤ T

theorem SumClose.zero (n : Nat) : SumClose n 0 0 0 0 0 := ⟨near_zero, fun _ => half_zero, le_rfl⟩

theorem SumClose.add {n w t T w' t' T' : Nat} {c f c' f' : ℚ} (h : SumClose n w t T c f) (h' : SumClose n w' t' T' c' f') :
    SumClose n (w + w') (t + t') (T + T') (c + c') (fl (f + f')) :=
  ⟨h.near.add h'.near, fun hn => (h.half hn).add (h'.half hn), by have := h.le; have := h'.le; omega⟩

theorem FClose.sum {n : Nat} {u v : UnitResults} (h : FClose n u v) :
    SumClose n u.wins u.ties u.total u.correctedTies v.correctedTies := ⟨h.close.near, h.close.half, h.le⟩

/-- The sums over the hands of a combo in the two models. -/
structure AggClose (n : Nat) (a a' : Agg) : Prop where
  counter : a'.counter = a.counter
  weight : a'.weight = a.weight
  wins : a'.wins = a.wins
  ties : a'.ties = a.ties
  total : a'.total = a.total
  sum : SumClose n a.wins a.ties a.total a.correctedTies a'.correctedTies

theorem finalHand_close {n : Nat} {u v : UnitResults} {a a' : Agg} (h : FClose n u v) (ha : AggClose n a a') :
    FClose n (finalHand u a).1 (finalHandF v a').1 ∧ AggClose n (finalHand u a).2 (finalHandF v a').2 := by
  obtain ⟨hc, he, hle, hw, ht⟩ := h
  unfold finalHand finalHandF
  rw [hc.valid]
  split
  · rw [hc.total]
    split
    · refine ⟨⟨⟨hc.wins, hc.ties, rfl, hc.weight, hc.rank, hc.draw, rfl, hc.near, hc.half⟩, ?_, hle, Or.inr ⟨rfl, ?_⟩,
        Or.inr ⟨rfl, ?_⟩⟩, ?_⟩
      · unfold EqClose at he ⊢
        rw [hc.total] at he
        exact he
      · simp only [hc.wins]
      · simp only [hc.ties]
      · refine ⟨congrArg (· + 1) ha.counter, congrArg₂ (· + ·) ha.weight hc.weight, congrArg₂ (· + ·) ha.wins hc.wins,
          congrArg₂ (· + ·) ha.ties hc.ties, ?_, ?_⟩
        · simp only [ha.total]
        · exact ha.sum.add ⟨hc.near, hc.half, hle⟩
    · exact ⟨⟨⟨hc.wins, hc.ties, rfl, hc.weight, hc.rank, hc.draw, rfl, hc.near, hc.half⟩, Or.inl ⟨rfl, rfl⟩, hle, hw, ht⟩, ha⟩
  · exact ⟨⟨hc, he, hle, hw, ht⟩, ha⟩

theorem scaled_big {t : Nat} (h : t > U64_MAX) : 2 ^ 62 ≤ t / (t / U64_MAX + 1) := by
  rw [Nat.le_div_iff_mul_le (Nat.succ_pos _)]
  have h1 := Nat.div_mul_le_self t U64_MAX
  have h2 : 1 ≤ t / U64_MAX := by
    rw [Nat.le_div_iff_mul_le (by unfold U64_MAX; omega)]
    omega
  generalize t / U64_MAX = q at *
  unfold U64_MAX at *
  omega

theorem scaled_mod (t : Nat) : t / (t / U64_MAX + 1) % 2 ^ 64 = t / (t / U64_MAX + 1) := by
  apply Nat.mod_eq_of_lt
  have := ratio_fits t
  unfold U64_MAX at *
  omega

theorem finalCombo_close {n : Nat} (size : Nat) {a a' : Agg} (h : AggClose n a a') :
    Published n (finalCombo size a) (finalComboF size a') := by
  obtain ⟨h1, h2, h3, h4, h5, hs⟩ := h
  unfold finalCombo finalComboF
  rw [h1, h2, h3, h4, h5]
  split
  · by_cases hT : a.total > U64_MAX
    · simp only [hT, if_true]
      have hbig : ¬ a.total / (a.total / U64_MAX + 1) % 2 ^ 64 < 2 ^ 62 := by
        rw [scaled_mod]; have := scaled_big hT; omega
      have hbig' : ¬ a.total / (a.total / U64_MAX + 1) % 2 ^ 64 ≤ 2 ^ 52 := by
        rw [scaled_mod]; have := scaled_big hT; omega
      exact ⟨rfl, rfl, rfl, rfl, rfl, rfl, rfl, fun h => absurd h hbig, fun h => absurd h hbig, fun h => absurd h hbig, fun h => absurd h hbig,
        fun _ h => absurd h hbig'⟩
    · simp only [hT, if_false]
      have hlt : a.total < 2 ^ 64 := by unfold U64_MAX at hT; omega
      have hle := hs.le
      have e1 : a.total % 2 ^ 64 = a.total := Nat.mod_eq_of_lt hlt
      have e2 : a.ties % 2 ^ 64 = a.ties := Nat.mod_eq_of_lt (by omega)
      refine ⟨rfl, rfl, rfl, rfl, rfl, rfl, rfl, fun _ => ?_, fun h => ?_, fun h => ?_, fun h => ?_, fun hn h => ?_⟩ <;>
        simp only [e1, e2] at *
      · exact hs.near.rel
      · exact equity_rel hs.near h
      · exact rate_rel _ h
      · have hr : RateClose a.ties a.total (fdiv a.ties a.total) (ffdiv (fl a.ties) (fl a.total)) := Or.inr ⟨rfl, rfl⟩
        exact (hr.rel h).mono hr.nonneg.1 hr.nonneg.2 (by omega)
      · refine ⟨(hs.half hn).exact (hs.near.le.trans ?_), equity_exact (hs.half hn) hs.near.le hle h, rate_exact (by omega) (by omega),
          rate_exact (by omega) (by omega)⟩
        exact_mod_cast (by omega)
  · exact published_default n

/-- The records of all hands. -/
def HandsClose (n : Nat) (hr hr' : Nat → UnitResults) : Prop := ∀ k, FClose n (hr k) (hr' k)

theorem HandsClose.update {n : Nat} {hr hr' : Nat → UnitResults} (h : HandsClose n hr hr') (k : Nat) {u v : UnitResults}
    (huv : FClose n u v) : HandsClose n (Function.update hr k u) (Function.update hr' k v) := by
  intro j
  by_cases hj : j = k
  · subst hj; rw [Function.update_self, Function.update_self]; exact huv
  · rw [Function.update_of_ne hj, Function.update_of_ne hj]; exact h j

theorem finalHands_close {n : Nat} (start size : Nat) {hr hr' : Nat → UnitResults} (h : HandsClose n hr hr') :
    HandsClose n (finalHands start size hr).1 (finalHandsF start size hr').1 ∧
    AggClose n (finalHands start size hr).2 (finalHandsF start size hr').2 := by
  unfold finalHands finalHandsF
  refine foldl_rel (R := fun x x' : (Nat → UnitResults) × Agg => HandsClose n x.1 x'.1 ∧ AggClose n x.2 x'.2) _ ?_
    ⟨h, rfl, rfl, rfl, rfl, rfl, SumClose.zero n⟩
  rintro k _ ⟨hr, a⟩ ⟨hr', a'⟩ ⟨hh, ha⟩
  obtain ⟨h1, h2⟩ := finalHand_close (hh (start + k)) ha
  exact ⟨hh.update _ h1, h2⟩

theorem finalPlayer_close {n : Nat} (i : Nat) : ∀ (fuel j : Nat) {hr hr' : Nat → UnitResults} {cs cs' : List UnitResults},
    HandsClose n hr hr' → List.Forall₂ (Published n) cs cs' →
    HandsClose n (finalPlayer i fuel j hr cs).1 (finalPlayerF i fuel j hr' cs').1 ∧
    List.Forall₂ (Published n) (finalPlayer i fuel j hr cs).2 (finalPlayerF i fuel j hr' cs').2 := by
  intro fuel
  induction fuel with
  | zero => exact fun _ _ _ _ _ h hc => ⟨h, hc⟩
  | succ f ih =>
    intro j hr hr' cs cs' h hc
    unfold finalPlayer finalPlayerF
    split
    · obtain ⟨h1, h2⟩ := finalHands_close (i * NUM_HANDS + j) (batchSize j) h
      exact ih _ h1 (List.rel_append hc (List.Forall₂.cons (finalCombo_close _ h2) List.Forall₂.nil))
    · exact ⟨h, hc⟩

/-- The sums over the hands of a table entry in the two models. -/
structure BigClose (n : Nat) (b b' : BigUnitResults) : Prop where
  weight : b'.weight = b.weight
  wins : b'.wins = b.wins
  ties : b'.ties = b.ties
  total : b'.total = b.total
  sum : SumClose n b.wins b.ties b.total b.correctedTies b'.correctedTies

theorem BigClose.zero (n : Nat) : BigClose n {} {} := ⟨rfl, rfl, rfl, rfl, SumClose.zero n⟩

theorem BigClose.addHand {n : Nat} {b b' : BigUnitResults} {u v : UnitResults} (h : BigClose n b b') (hu : FClose n u v) :
    BigClose n (b.addHand u) (b'.addHandF v) :=
  ⟨congrArg₂ (· + ·) h.weight hu.close.weight, congrArg₂ (· + ·) h.wins hu.close.wins, congrArg₂ (· + ·) h.ties hu.close.ties,
    congrArg₂ (· + ·) h.total hu.close.total, h.sum.add hu.sum⟩

/-- The tables of sums. -/
def TableClose (n : Nat) (t t' : Nat → BigUnitResults) : Prop := ∀ k, BigClose n (t k) (t' k)

theorem TableClose.addHand {n : Nat} {t t' : Nat → BigUnitResults} (h : TableClose n t t') (k : Nat) {u v : UnitResults}
    (hu : FClose n u v) : TableClose n (Function.update t k ((t k).addHand u)) (Function.update t' k ((t' k).addHandF v)) := by
  intro j
  by_cases hj : j = k
  · subst hj; rw [Function.update_self, Function.update_self]; exact (h j).addHand hu
  · rw [Function.update_of_ne hj, Function.update_of_ne hj]; exact h j

theorem boardHand_close {n : Nat} (i : Nat) {u v : UnitResults} (hu : FClose n u v)
    {t t' : (Nat → BigUnitResults) × (Nat → BigUnitResults)} (h : TableClose n t.1 t'.1 ∧ TableClose n t.2 t'.2) :
    TableClose n (boardHand i u t).1 (boardHandF i v t').1 ∧ TableClose n (boardHand i u t).2 (boardHandF i v t').2 := by
  unfold boardHand boardHandF
  rw [hu.close.valid]
  split
  · simp only [hu.close.rank, hu.close.draw]
    refine ⟨h.1.addHand _ hu, ?_⟩
    have hd := foldl_rel (R := TableClose n) (List.range 7) (f := fun d k =>
        if u.draw &&& (1 <<< k) ≠ 0 then Function.update d (i * 10 + k) ((d (i * 10 + k)).addHand u) else d)
      (g := fun d k => if u.draw &&& (1 <<< k) ≠ 0 then Function.update d (i * 10 + k) ((d (i * 10 + k)).addHandF v) else d)
      (fun k _ a b hab => by
        split
        · exact hab.addHand _ hu
        · exact hab) h.2
    cases nutIndex u.draw with
    | none => exact hd
    | some k => exact hd.addHand _ hu
  · exact h

theorem boardTables_close (n m : Nat) {hr hr' : Nat → UnitResults} (h : HandsClose n hr hr') :
    TableClose n (boardTables m hr).1 (boardTablesF m hr').1 ∧ TableClose n (boardTables m hr).2 (boardTablesF m hr').2 := by
  unfold boardTables boardTablesF
  refine foldl_rel (R := fun t t' : (Nat → BigUnitResults) × (Nat → BigUnitResults) => TableClose n t.1 t'.1 ∧ TableClose n t.2 t'.2) _ ?_
    ⟨fun _ => BigClose.zero n, fun _ => BigClose.zero n⟩
  intro i _ t t' ht
  generalize List.range NUM_HANDS = L
  refine foldl_rel (R := fun t t' : (Nat → BigUnitResults) × (Nat → BigUnitResults) => TableClose n t.1 t'.1 ∧ TableClose n t.2 t'.2) L ?_ ht
  intro j _ t t' ht
  exact boardHand_close i (h _) ht

theorem boardUnit_close {n : Nat} {b b' : BigUnitResults} (h : BigClose n b b') :
    Published n (boardUnit b UnitResults.default) (boardUnitF b' UnitResults.default) := by
  obtain ⟨h2, h3, h4, h5, hs⟩ := h
  unfold boardUnit boardUnitF
  rw [h2, h3, h4, h5]
  split
  · by_cases hT : b.total > U64_MAX
    · simp only [hT, if_true]
      have hbig : ¬ b.total / (b.total / U64_MAX + 1) % 2 ^ 64 < 2 ^ 62 := by
        rw [scaled_mod]; have := scaled_big hT; omega
      have hbig' : ¬ b.total / (b.total / U64_MAX + 1) % 2 ^ 64 ≤ 2 ^ 52 := by
        rw [scaled_mod]; have := scaled_big hT; omega
      exact ⟨rfl, rfl, rfl, rfl, rfl, rfl, rfl, fun h => absurd h hbig, fun h => absurd h hbig, fun h => absurd h hbig, fun h => absurd h hbig,
        fun _ h => absurd h hbig'⟩
    · simp only [hT, if_false]
      have hlt : b.total < 2 ^ 64 := by unfold U64_MAX at hT; omega
      have hle := hs.le
      have e1 : b.total % 2 ^ 64 = b.total := Nat.mod_eq_of_lt hlt
      have e2 : b.ties % 2 ^ 64 = b.ties := Nat.mod_eq_of_lt (by omega)
      have e3 : b.wins % 2 ^ 64 = b.wins := Nat.mod_eq_of_lt (by omega)
      have e4 : fl (b'.correctedTies / fl ((1 : Nat) : ℚ)) = b'.correctedTies := by
        rw [Nat.cast_one, fl_one, div_one, hs.near.f64]
      have e5 : b.correctedTies / ((1 : Nat) : ℚ) = b.correctedTies := by rw [Nat.cast_one, div_one]
      refine ⟨rfl, rfl, rfl, rfl, rfl, rfl, rfl, fun _ => ?_, fun h => ?_, fun h => ?_, fun h => ?_, fun hn h => ?_⟩ <;>
        simp only [Nat.div_one, e1, e2, e3, e4, e5] at *
      · exact hs.near.rel
      · exact equity_rel hs.near h
      · exact rate_rel _ h
      · have := quot_rel hs.near.nonneg hs.near.rel hs.near.big h
        refine this.mono ?_ ?_ (by omega)
        · intro a ha
          unfold fdiv at ha
          split at ha
          · cases ha
          · rw [← Option.some.inj ha]; exact div_nonneg hs.near.nonneg (by positivity)
        · intro a ha
          unfold ffdiv at ha
          split at ha
          · cases ha
          · rw [← Option.some.inj ha]
            exact fl_nonneg (div_nonneg hs.near.pos (fl_nonneg (by positivity)))
      · have hc : b'.correctedTies = b.correctedTies := (hs.half hn).exact (hs.near.le.trans (by exact_mod_cast (by omega)))
        exact ⟨hc, equity_exact (hs.half hn) hs.near.le hle h, rate_exact (by omega) (by omega), quot_exact hc (by omega)⟩
  · exact published_default n

/-! ## Equities of the players -/

theorem foldl_add_eq (l : List ℚ) (a : ℚ) : l.foldl (· + ·) a = a + l.sum := by
  induction l generalizing a with
  | nil => simp
  | cons x l ih => rw [List.foldl_cons, ih, List.sum_cons, add_assoc]

theorem sum_exact (l : List Nat) (s : Nat) (h : s + l.sum ≤ 2 ^ 53) :
    (l.map fun m : Nat => (m : ℚ)).foldl (fun a e => fl (a + e)) s = s + (l.map fun m : Nat => (m : ℚ)).sum := by
  induction l generalizing s with
  | nil => simp
  | cons x l ih =>
    rw [List.sum_cons] at h
    rw [List.map_cons, List.foldl_cons, List.sum_cons, ← Nat.cast_add, fl_nat (by omega), ih (s + x) (by omega)]
    push_cast
    ring

/-- The equities of the players: rounded once if all sums are at most `2 ^ 53`. -/
theorem getEquity_exact {n : Nat} {r r' : Results} (hw : r'.wins = r.wins) (ht : ∀ p, Whole (r.ties p) (r'.ties p))
    (hsum : ((List.range n).map fun i => (r.wins i : ℚ) + r.ties i).sum ≤ 2 ^ 53) :
    (getEquityF n r').equities = (getEquity n r).equities.map (Option.map fl) := by
  have hm : ∀ p, ∃ m : Nat, r.ties p = m := fun p => (ht p).whole
  choose m hm using hm
  have e1 : ((List.range n).map fun i => (r.wins i : ℚ) + r.ties i) = ((List.range n).map fun i => r.wins i + m i).map fun k : Nat => (k : ℚ) := by
    rw [List.map_map]
    apply List.map_congr_left
    intro i _
    simp [hm i]
  have e2 : (((List.range n).map fun i => r.wins i + m i).map fun k : Nat => (k : ℚ)).sum = (((List.range n).map fun i => r.wins i + m i).sum : Nat) := by
    exact (map_list_sum (Nat.castRingHom ℚ) _).symm
  rw [e1, e2] at hsum
  have hs : ((List.range n).map fun i => r.wins i + m i).sum ≤ 2 ^ 53 := by exact_mod_cast hsum
  have e3 : ((List.range n).map fun i => fl (fl (0 + fl (r'.wins i)) + r'.ties i)) =
      ((List.range n).map fun i => r.wins i + m i).map fun k : Nat => (k : ℚ) := by
    rw [List.map_map]
    apply List.map_congr_left
    intro i hi
    have hle : r.wins i + m i ≤ 2 ^ 53 := (List.single_le_sum (by simp) _ (List.mem_map_of_mem (f := fun i => r.wins i + m i) hi)).trans hs
    have h1 : r'.ties i = m i := by
      rw [(ht i).exact (by rw [hm i]; exact_mod_cast (by omega)), hm i]
    have h2 : fl (r.wins i) = r.wins i := fl_nat (by omega)
    rw [hw, h1, zero_add, h2, h2, ← Nat.cast_add, fl_nat hle]
    rfl
  have e4 : ((List.range n).map fun i => (0 : ℚ) + (r.wins i : ℚ) + r.ties i) =
      ((List.range n).map fun i => r.wins i + m i).map fun k : Nat => (k : ℚ) := by
    rw [← e1]
    apply List.map_congr_left
    intro i _
    ring
  unfold getEquityF getEquity
  simp only
  rw [e3, e4, foldl_add_eq, zero_add]
  have e5 := sum_exact ((List.range n).map fun i => r.wins i + m i) 0 (by omega)
  rw [Nat.cast_zero, zero_add] at e5
  rw [e5, List.map_map (g := Option.map fl)]
  apply List.map_congr_left
  intro e _
  rw [e2, Function.comp]
  exact (quot_exact rfl hs ▸ by rw [fl_nat hs])

/-- Not smaller than one, or zero. -/
def Big (x : ℚ) : Prop := x = 0 ∨ 1 ≤ x

theorem Big.nonneg {x : ℚ} (h : Big x) : 0 ≤ x := by
  rcases h with h | h <;> linarith

theorem Big.add {x y : ℚ} (h : Big x) (h' : Big y) : Big (x + y) := by
  rcases h with rfl | h
  · rwa [zero_add]
  · right; have := h'.nonneg; linarith

theorem Big.fl {x : ℚ} (h : Big x) : Big (fl x) := by
  rcases h with rfl | h
  · left; exact fl_zero
  · right
    have := fl_mono zero_le_one h
    rwa [fl_one] at this

theorem Big.normal {x : ℚ} (h : Big x) : Normal x := by
  rcases h with h | h
  · exact Or.inl h
  · exact normal_big (by linarith)

theorem big_nat (n : Nat) : Big n := by
  rcases Nat.eq_zero_or_pos n with rfl | h
  · left; simp
  · right; exact_mod_cast h

theorem foldl_rel_sum {k : Nat} : ∀ {l l' : List ℚ}, List.Forall₂ (fun a b => Rel k a b ∧ Big a ∧ Big b) l l' → ∀ {j : Nat} {a b : ℚ}, Rel (k + j) a b →
    Big a → Big b → Rel (k + j + l.length) (a + l.sum) (l'.foldl (fun s e => fl (s + e)) b) ∧ Big (a + l.sum) ∧
      Big (l'.foldl (fun s e => fl (s + e)) b) := by
  intro l l' h
  induction h with
  | nil => intro j a b h ha hb; simpa using ⟨h, ha, hb⟩
  | @cons x y l l' hxy h ih =>
    intro j a b h ha hb
    obtain ⟨hr, hx, hy⟩ := hxy
    have h1 := (h.add (hr.mono hx.nonneg hy.nonneg (by omega : k ≤ k + j))).trans (Rel.fl (hb.add hy).normal)
    have := ih (j := j + 1) h1 (ha.add hx) (hb.add hy).fl
    rw [List.sum_cons, ← add_assoc, List.foldl_cons, List.length_cons, show k + j + (l.length + 1) = k + (j + 1) + l.length by omega]
    exact this

/-- In general the error of the equities of the players is that of `n + 4` roundings. -/
theorem getEquity_rel {n : Nat} {r r' : Results} (h9 : n ≤ 9) (hw : r'.wins = r.wins) (ht : ∀ p, Whole (r.ties p) (r'.ties p))
    (hlt : ∀ p < n, r.ties p ≤ 2 ^ 53) (hlt' : ((List.range n).map fun i => (r.wins i : ℚ) + r.ties i).sum < 2 ^ 128) :
    List.Forall₂ (OptRel (n + 4)) (getEquity n r).equities (getEquityF n r').equities := by
  have hm : ∀ p, ∃ m : Nat, r.ties p = m := fun p => (ht p).whole
  choose m hm using hm
  have hel : ∀ i < n, Rel 2 ((0 : ℚ) + (r.wins i : ℚ) + r.ties i) (fl (fl (0 + fl (r'.wins i)) + r'.ties i)) ∧
      Big ((0 : ℚ) + (r.wins i : ℚ) + r.ties i) ∧ Big (fl (fl (0 + fl (r'.wins i)) + r'.ties i)) ∧
      fl (fl (fl (0 + fl (r'.wins i)) + r'.ties i)) = fl (fl (0 + fl (r'.wins i)) + r'.ties i) := by
    intro i hi
    have h1 : r'.ties i = m i := by rw [(ht i).exact (hlt i hi), hm i]
    rw [hw, h1, hm i, zero_add, zero_add, fl_fl]
    have hb := (big_nat (r.wins i)).fl.add (big_nat (m i))
    refine ⟨?_, (big_nat _).add (big_nat _), hb.fl, fl_fl _⟩
    exact ((Rel.fl (normal_nat _)).add (Rel.refl 1 (by positivity))).trans (Rel.fl hb.normal)
  unfold getEquityF getEquity
  simp only
  generalize hE : ((List.range n).map fun i => (0 : ℚ) + (r.wins i : ℚ) + r.ties i) = E
  generalize hE' : ((List.range n).map fun i => fl (fl (0 + fl (r'.wins i)) + r'.ties i)) = E'
  have hlen : E.length = n := by rw [← hE]; simp
  have hsum : E.sum < 2 ^ 128 := by
    rw [← hE]
    simpa using hlt'
  have hall : List.Forall₂ (fun a b => Rel 2 a b ∧ Big a ∧ Big b) E E' := by
    rw [← hE, ← hE', List.forall₂_map_left_iff, List.forall₂_map_right_iff, List.forall₂_same]
    intro i hi
    have := hel i (List.mem_range.1 hi)
    exact ⟨this.1, this.2.1, this.2.2.1⟩
  have hfix : ∀ x ∈ E', fl x = x := by
    intro x hx
    rw [← hE'] at hx
    obtain ⟨i, hi, rfl⟩ := List.mem_map.1 hx
    exact (hel i (List.mem_range.1 hi)).2.2.2
  rw [foldl_add_eq, zero_add, List.forall₂_map_left_iff, List.forall₂_map_right_iff]
  have hs : Rel (n + 1) E.sum (E'.foldl (fun s e => fl (s + e)) 0) ∧ Big E.sum ∧ Big (E'.foldl (fun s e => fl (s + e)) 0) := by
    cases hall with
    | nil => simpa [Big] using Rel.refl _ le_rfl
    | @cons x y l l' hxy h =>
      have := foldl_rel_sum h (j := 0) hxy.1 hxy.2.1 hxy.2.2
      rw [List.length_cons] at hlen
      rw [List.foldl_cons, zero_add, hfix y (by simp), List.sum_cons, ← hlen, show l.length + 1 + 1 = 2 + 0 + l.length by omega]
      exact this
  generalize E'.foldl (fun s e => fl (s + e)) 0 = S' at hs
  generalize E.sum = S at hs hsum
  obtain ⟨hr, hS, hS'⟩ := hs
  have hle : S' ≤ 2 ^ 138 := by
    have h2 : lam ^ (n + 1) ≤ 2 ^ 10 := by
      have : lam ≤ 2 := by unfold lam; norm_num
      calc lam ^ (n + 1) ≤ 2 ^ (n + 1) := by gcongr; exact lam_pos.le
        _ ≤ 2 ^ 10 := pow_le_pow_right₀ (by norm_num) (by omega)
    calc S' ≤ lam ^ (n + 1) * S := hr.2
      _ ≤ 2 ^ 10 * 2 ^ 128 := by
        have := hS.nonneg
        gcongr
      _ = 2 ^ 138 := by norm_num
  refine hall.imp ?_
  rintro e e' ⟨he, hb, hb'⟩
  unfold fdiv ffdiv
  rcases hS with rfl | hS
  · have : S' = 0 := le_antisymm (by have := hr.2; rwa [mul_zero] at this) hS'.nonneg
    rw [if_pos rfl, if_pos this]
    trivial
  · have hp : S' ≠ 0 := by
      rintro rfl
      have := hr.1
      rw [mul_zero] at this
      linarith
    have hS1 : 1 ≤ S' := hS'.resolve_left hp
    rw [if_neg (by linarith), if_neg hp]
    have hn : Normal (e' / S') := by
      rcases hb' with rfl | hb'
      · left; simp
      · refine normal_of_le (tiny_le (n := 138) (by omega)) ?_
        rw [le_div_iff₀ (by linarith)]
        calc 1 / 2 ^ 138 * S' ≤ 1 / 2 ^ 138 * 2 ^ 138 := by gcongr
          _ = 1 := by norm_num
          _ ≤ e' := hb'
    have := (he.div (by linarith) (by linarith) hb'.nonneg hb.nonneg hr).trans (Rel.fl hn)
    rwa [show 2 + (n + 1) + 1 = n + 4 by omega] at this

end Pokers
