import Verif.Proofs.ChanceBoard
import Verif.Proofs.McMean
/-!
The probabilities of the first deal of a batch.
-/
namespace Pokers

open Spec
open scoped ENNReal

/-- The number of lists of indexes that can be drawn in one attempt. -/
def drawCount (crs : List CombinedRange) : Nat := (crs.map (·.size)).prod

theorem drawCount_inv (cr : CombinedRange) (rest : List CombinedRange) :
    (drawCount (cr :: rest) : ℝ≥0∞)⁻¹ = (cr.size : ℝ≥0∞)⁻¹ * (drawCount rest : ℝ≥0∞)⁻¹ := by
  have : drawCount (cr :: rest) = cr.size * drawCount rest := rfl
  rw [this, Nat.cast_mul, ENNReal.mul_inv (Or.inr (ENNReal.natCast_ne_top _)) (Or.inl (ENNReal.natCast_ne_top _))]

/-- The probability that an attempt fails. -/
noncomputable def misses : List CombinedRange → Nat → ℝ≥0∞
  | [], _ => 0
  | cr :: rest, u => (cr.size : ℝ≥0∞)⁻¹ * ∑ k ∈ Finset.range cr.size,
      match cr.combos[k]? with
      | none => 0
      | some c => if u &&& c.mask ≠ 0 then 1 else misses rest (u ||| c.mask)

/-- What follows the draw of an index. -/
def dealNext (cr : CombinedRange) (rest : List CombinedRange) (i : Nat) (w : Walk) (idx : Nat) : Draws → Out (Bool × Walk) := fun ds =>
  let w := { w with indexes := Function.update w.indexes i idx }
  match cr.combos[idx]? with
  | none => .panic
  | some combo =>
    if w.used &&& combo.mask ≠ 0 then .ok (false, w) ds
    else
      let w := w.write cr combo
      dealLoop rest (i + 1) { w with used := w.used ||| combo.mask } ds

theorem dealLoop_bind (cr : CombinedRange) (rest : List CombinedRange) (i : Nat) (w : Walk) :
    dealLoop (cr :: rest) i w = bindD (sample cr.size) (dealNext cr rest i w) := by
  funext ds
  unfold bindD
  rw [dealLoop]
  cases sample cr.size ds <;> rfl

theorem dealNext_fail {cr : CombinedRange} {rest : List CombinedRange} {i : Nat} {w : Walk} {idx : Nat} {c : JointCombo} (h : cr.combos[idx]? = some c)
    (hc : w.used &&& c.mask ≠ 0) : dealNext cr rest i w idx = retD (false, { w with indexes := Function.update w.indexes i idx }) := by
  funext ds
  unfold dealNext
  rw [h]
  simp only [if_pos hc]
  rfl

theorem dealNext_go {cr : CombinedRange} {rest : List CombinedRange} {i : Nat} {w : Walk} {idx : Nat} {c : JointCombo} (h : cr.combos[idx]? = some c)
    (hc : ¬ w.used &&& c.mask ≠ 0) : ∃ w', w'.used = w.used ||| c.mask ∧ dealNext cr rest i w idx = dealLoop rest (i + 1) w' := by
  let w1 : Walk := { w with indexes := Function.update w.indexes i idx }
  refine ⟨{ w1.write cr c with used := (w1.write cr c).used ||| c.mask }, ?_, ?_⟩
  · show (w1.write cr c).used ||| c.mask = _
    rw [write_used]
  · funext ds
    unfold dealNext
    rw [h]
    simp only [if_neg hc]
    rfl

theorem dealLoop_reads : ∀ (crs : List CombinedRange) (i : Nat) (w : Walk), Reads (dealLoop crs i w)
  | [], _, w => Reads.ret (true, w)
  | cr :: rest, i, w => by
    rw [dealLoop_bind]
    refine (sample_reads _).bind fun q idx r _ => ?_
    cases h : cr.combos[idx]? with
    | none =>
      intro ds a r e
      unfold dealNext at e
      rw [h] at e
      cases e
    | some c =>
      by_cases hc : w.used &&& c.mask ≠ 0
      · rw [dealNext_fail h hc]
        exact Reads.ret _
      · obtain ⟨w', _, e⟩ := dealNext_go (rest := rest) (i := i) h hc
        rw [e]
        exact dealLoop_reads rest _ _

/-- What is needed of the combined ranges. -/
def Drawable (crs : List CombinedRange) : Prop := ∀ cr ∈ crs, cr.size = cr.combos.length ∧ 0 < cr.size

theorem Drawable.get {cr : CombinedRange} {rest : List CombinedRange} (h : Drawable (cr :: rest)) {k : Nat} (hk : k < cr.size) :
    ∃ c, cr.combos[k]? = some c := by
  rw [(h cr (by simp)).1] at hk
  exact ⟨_, List.getElem?_eq_getElem hk⟩

theorem Drawable.tail {cr : CombinedRange} {rest : List CombinedRange} (h : Drawable (cr :: rest)) : Drawable rest := fun c hc => h c (by simp [hc])

theorem dealLoop_ends : ∀ (crs : List CombinedRange) (i : Nat) (w : Walk), Drawable crs → CanEnd (dealLoop crs i w)
  | [], _, w, _ => CanEnd.ret (true, w)
  | cr :: rest, i, w, hd => by
    rw [dealLoop_bind]
    refine CanEnd.bind (sample_reads _) (sample_ends (hd cr (by simp)).2) fun q idx h => ?_
    obtain ⟨c, hc⟩ := hd.get (sample_ok h).1
    by_cases hm : w.used &&& c.mask ≠ 0
    · rw [dealNext_fail hc hm]
      exact CanEnd.ret _
    · obtain ⟨w', _, e⟩ := dealNext_go (rest := rest) (i := i) hc hm
      rw [e]
      exact dealLoop_ends rest _ _ hd.tail

theorem sum_flatMap_range (n : Nat) (g : Nat → List (List Nat)) (F : List Nat → ℝ≥0∞) :
    (((List.range n).flatMap g).map F).sum = ∑ k ∈ Finset.range n, ((g k).map F).sum := by
  induction n with
  | zero => simp
  | succ n ih => rw [List.range_succ, List.flatMap_append, List.map_append, List.sum_append, ih, Finset.sum_range_succ]; simp

/-- The expected value of one attempt. -/
theorem expect_dealLoop : ∀ (crs : List CombinedRange) (i : Nat) (w : Walk) (Φ : Bool × Walk → ℝ≥0∞) (F : List Nat → ℝ≥0∞) (c : ℝ≥0∞), Drawable crs →
    (∀ q w', dealLoop crs i w q = .ok (false, w') [] → Φ (false, w') = c) → (∀ x w', dealLoop crs i w x = .ok (true, w') [] → Φ (true, w') = F x) →
    expect (dealLoop crs i w) Φ = (drawCount crs : ℝ≥0∞)⁻¹ * ((legalIdxs crs w.used).map F).sum + misses crs w.used * c
  | [], i, w, Φ, F, c, _, _, h2 => by
    show expect (retD (true, w)) Φ = _
    rw [expect_ret, h2 [] w rfl]
    simp [drawCount, legalIdxs, misses]
  | cr :: rest, i, w, Φ, F, c, hd, h1, h2 => by
    have hsz := (hd cr (by simp)).1
    have hpos := (hd cr (by simp)).2
    rw [dealLoop_bind, expect_bind (sample_reads _) (fun q idx h => by
      obtain ⟨c, hc⟩ := hd.get (sample_ok h).1
      by_cases hm : w.used &&& c.mask ≠ 0
      · rw [dealNext_fail hc hm]
        exact CanEnd.ret _
      · obtain ⟨w', _, e⟩ := dealNext_go (rest := rest) (i := i) hc hm
        rw [e]
        exact dealLoop_ends rest _ _ hd.tail), expect_sample]
    have hstep : ∀ k ∈ Finset.range cr.size, expect (dealNext cr rest i w k) Φ =
        (drawCount rest : ℝ≥0∞)⁻¹ * ((match cr.combos[k]? with
          | none => []
          | some c => if w.used &&& c.mask ≠ 0 then [] else (legalIdxs rest (w.used ||| c.mask)).map (k :: ·) : List (List Nat)).map F).sum +
        (match cr.combos[k]? with
          | none => 0
          | some c => if w.used &&& c.mask ≠ 0 then 1 else misses rest (w.used ||| c.mask)) * c := by
      intro k hk
      have hk := Finset.mem_range.1 hk
      obtain ⟨jc, hc⟩ := hd.get hk
      have hb : ∀ ds, dealLoop (cr :: rest) i w (k :: ds) = dealNext cr rest i w k ds := by
        intro ds
        rw [dealLoop_bind, bindD_of (a := k) (r := ds)]
        rw [sample, if_pos hk]
      rw [hc]
      by_cases hm : w.used &&& jc.mask ≠ 0
      · simp only [if_pos hm]
        rw [dealNext_fail hc hm, expect_ret]
        rw [h1 [k] _ (by rw [hb, dealNext_fail hc hm]; rfl)]
        simp
      · simp only [if_neg hm]
        obtain ⟨w', hu, e⟩ := dealNext_go (rest := rest) (i := i) hc hm
        rw [e, expect_dealLoop rest (i + 1) w' Φ (fun x => F (k :: x)) c hd.tail (fun q w'' h => h1 (k :: q) w'' (by rw [hb, e, h]))
          (fun x w'' h => h2 (k :: x) w'' (by rw [hb, e, h])), hu, List.map_map]
        rfl
    rw [Finset.sum_congr rfl hstep, Finset.sum_add_distrib, ← Finset.mul_sum, ← Finset.sum_mul, mul_add, misses, ← mul_assoc, ← mul_assoc]
    congr 1
    · congr 1
      · exact (drawCount_inv cr rest).symm
      · rw [legalIdxs, sum_flatMap_range, ← hsz]
        rfl

/-- The probabilities of success and of failure of an attempt. -/
theorem misses_add : ∀ (crs : List CombinedRange) (u : Nat), Drawable crs →
    (drawCount crs : ℝ≥0∞)⁻¹ * ((legalIdxs crs u).length : ℝ≥0∞) + misses crs u = 1
  | [], u, _ => by simp [drawCount, legalIdxs, misses]
  | cr :: rest, u, hd => by
    have hsz := (hd cr (by simp)).1
    have hpos := (hd cr (by simp)).2
    have hq : (cr.size : ℝ≥0∞) ≠ 0 := by exact_mod_cast hpos.ne'
    have e1 : ((legalIdxs (cr :: rest) u).length : ℝ≥0∞) = ∑ k ∈ Finset.range cr.size, (((match cr.combos[k]? with
          | none => []
          | some c => if u &&& c.mask ≠ 0 then [] else (legalIdxs rest (u ||| c.mask)).map (k :: ·) : List (List Nat)).length : Nat) : ℝ≥0∞) := by
      have := sum_flatMap_range cr.size (fun k => match cr.combos[k]? with
          | none => []
          | some c => if u &&& c.mask ≠ 0 then [] else (legalIdxs rest (u ||| c.mask)).map (k :: ·)) (fun _ => 1)
      simp only [List.map_const', List.sum_replicate, nsmul_eq_mul, mul_one] at this
      rw [legalIdxs, ← hsz]
      exact this
    rw [e1, drawCount_inv, misses, mul_assoc, ← mul_add, Finset.mul_sum, ← Finset.sum_add_distrib]
    rw [Finset.sum_congr rfl (g := fun _ => 1)]
    · rw [Finset.sum_const, Finset.card_range, nsmul_eq_mul, mul_one, ENNReal.inv_mul_cancel hq (ENNReal.natCast_ne_top _)]
    · intro k hk
      obtain ⟨c, hc⟩ := hd.get (Finset.mem_range.1 hk)
      rw [hc]
      by_cases hm : u &&& c.mask ≠ 0
      · simp only [if_pos hm]
        simp
      · simp only [if_neg hm, List.length_map]
        exact misses_add rest _ hd.tail

/-! ## The attempts -/

theorem attempts_bind (s : Sim) (k : Nat) (w : Walk) : attempts s (k + 1) w =
    bindD (dealLoop s.combinedRanges 0 { w with used := s.boardMask ||| s.deadMask }) fun p => if p.1 then retD (true, p.2) else attempts s k p.2 := by
  funext ds
  unfold bindD
  rw [attempts]
  cases dealLoop s.combinedRanges 0 { w with used := s.boardMask ||| s.deadMask } ds with
  | ok a rest =>
    obtain ⟨b, w'⟩ := a
    cases b <;> rfl
  | more => rfl
  | panic => rfl

theorem attempts_reads (s : Sim) : ∀ (k : Nat) (w : Walk), Reads (attempts s k w)
  | 0, w => Reads.ret (false, w)
  | k + 1, w => by
    rw [attempts_bind]
    refine (dealLoop_reads _ _ _).bind fun q a r _ => ?_
    split
    · exact Reads.ret _
    · exact attempts_reads s k _

theorem attempts_ends (s : Sim) (hd : Drawable s.combinedRanges) : ∀ (k : Nat) (w : Walk), CanEnd (attempts s k w)
  | 0, w => CanEnd.ret (false, w)
  | k + 1, w => by
    rw [attempts_bind]
    refine CanEnd.bind (dealLoop_reads _ _ _) (dealLoop_ends _ _ _ hd) fun q a _ => ?_
    split
    · exact CanEnd.ret _
    · exact attempts_ends s hd k _

section
variable {ranges : List (List Combo)} {b d : Nat} {s : Sim}

theorem McReady.drawable (h : McReady ranges b d s) : Drawable s.combinedRanges := fun cr hcr => ⟨h.crsOk.1.size cr hcr, h.crsOk.2 cr hcr⟩

/-- The probability that all attempts fail. -/
noncomputable def noDeal (s : Sim) (k : Nat) : ℝ≥0∞ := misses s.combinedRanges (s.boardMask ||| s.deadMask) ^ k

/-- The expected value of `randomize_hole_cards`: all legal lists of indexes are equally likely. -/
theorem expect_attempts (h : McReady ranges b d s) {Φ : Bool × Walk → ℝ≥0∞} {F : List Nat → ℝ≥0∞} {c : ℝ≥0∞}
    (h1 : ∀ w', Outside s.combinedRanges w' → Φ (false, w') = c)
    (h2 : ∀ w' picks x, WalkOk s.combinedRanges (b ||| d) w' picks → Outside s.combinedRanges w' → Points w' x → x.length = s.combinedRanges.length →
      x ∈ legalIdxs s.combinedRanges (b ||| d) → Φ (true, w') = F x) :
    ∀ (k : Nat) (w : Walk), Outside s.combinedRanges w → expect (attempts s k w) Φ =
      (∑ i ∈ Finset.range k, misses s.combinedRanges (b ||| d) ^ i) *
        ((drawCount s.combinedRanges : ℝ≥0∞)⁻¹ * ((legalIdxs s.combinedRanges (b ||| d)).map F).sum) + misses s.combinedRanges (b ||| d) ^ k * c
  | 0, w, ho => by
    show expect (retD (false, w)) Φ = _
    rw [expect_ret, h1 w ho]
    simp
  | k + 1, w, ho => by
    have hm : s.boardMask ||| s.deadMask = b ||| d := by rw [h.fields.2.1, h.fields.2.2.1]
    rw [attempts_bind, expect_bind (dealLoop_reads _ _ _) (fun q a _ => by
      split
      · exact CanEnd.ret _
      · exact attempts_ends s h.drawable k _), hm]
    have hspec := dealLoop_spec s.combinedRanges h.crsOk.1 (b ||| d) s.combinedRanges [] { w with used := b ||| d } []
    rw [expect_dealLoop s.combinedRanges 0 { w with used := b ||| d } _ F (expect (attempts s k w) Φ) h.drawable (fun q w' hq => ?_) (fun x w' hx => ?_)]
    · rw [expect_attempts h h1 h2 k w ho]
      show _ + misses s.combinedRanges (b ||| d) * _ = _
      rw [Finset.sum_range_succ', Finset.sum_congr rfl (fun i _ => pow_succ _ i), ← Finset.sum_mul]
      ring
    · have := ((hspec q rfl (WalkOk.nil _ _ rfl) ho).2 _ _ _ hq).1
      simp only [Bool.false_eq_true, if_false]
      rw [expect_attempts h h1 h2 k w' this, expect_attempts h h1 h2 k w ho]
    · obtain ⟨g1, g2⟩ := (hspec x rfl (WalkOk.nil _ _ rfl) ho).2 _ _ _ hx
      obtain ⟨picks, g2⟩ := g2 rfl
      simp only [if_true]
      rw [expect_ret]
      have t1 := (dealLoop_try s.combinedRanges 0 { w with used := b ||| d } x).2 _ _ _ hx
      obtain ⟨w'', t2, _, t3⟩ := (dealLoop_try s.combinedRanges 0 { w with used := b ||| d } x).1 _ _ t1
      obtain ⟨x', t4, t5⟩ := (tryDeal_true _ _ _ _).1 t1
      rw [List.append_nil] at t4
      subst t4
      have hl := t5.length
      have hw : w'' = w' := by
        rw [t2] at hx
        injection hx with hx _
        injection hx
      subst hw
      refine h2 w'' picks x g2 g1 (fun j hj => ?_) hl ((mem_legalIdxs _ _ x h.crsOk.1.size).2 t5)
      obtain ⟨h', e⟩ := t3 rfl j (by omega)
      rw [Nat.zero_add] at e
      exact e

end

end Pokers
