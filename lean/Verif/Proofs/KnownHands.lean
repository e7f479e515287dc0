import Verif.Proofs.McStop
import Verif.Proofs.McLive
import Verif.Proofs.Exists
/-! When every player has a single hand, the random simulation never fails to deal, and every thread makes at least one batch. -/
namespace Pokers
open CombinedRange Sim Spec

theorem dealLoop_known : ∀ (crs : List CombinedRange) (i : Nat) (w : Walk) (ds : Draws), (∀ cr ∈ crs, cr.size = 1) →
    (∃ x, LegalIdx crs w.used x) → ∀ ok w' rest, dealLoop crs i w ds = .ok (ok, w') rest → ok = true
  | [], i, w, ds, _, _, ok, w', rest, h => by cases h; rfl
  | cr :: crs, i, w, ds, h1, ⟨x, hx⟩, ok, w', rest, h => by
    match x, hx with
    | x :: xs, ⟨hx1, c, hx2, hx3, hx4⟩ =>
      have hs := h1 cr (by simp)
      unfold dealLoop at h
      split at h
      · rename_i idx ds' hsm
        have hidx : idx = x := by
          unfold sample at hsm
          split at hsm
          · cases hsm
          · split at hsm
            · cases hsm; omega
            · cases hsm
        subst hidx
        simp only [hx2] at h
        rw [if_neg (by simp [hx3])] at h
        exact dealLoop_known crs (i + 1) _ ds' (fun cr hcr => h1 cr (by simp [hcr])) ⟨xs, by
          have : ∀ (cr : CombinedRange) (w : Walk), (w.write cr c).used = w.used := fun cr w => by
            unfold Walk.write
            generalize List.range cr.playerCount = l
            induction l generalizing w with
            | nil => rfl
            | cons j l ih => rw [List.foldl_cons, ih]
          simp only [this]
          exact hx4⟩ ok w' rest h
      · cases h
      · cases h

theorem LegalIdx.pos : ∀ {crs : List CombinedRange} {u : Nat} {x : List Nat}, LegalIdx crs u x → ∀ cr ∈ crs, 0 < cr.size
  | [], _, _, _, cr, hcr => by cases hcr
  | q :: crs, u, x :: xs, ⟨h1, c, _, _, h4⟩, cr, hcr => by
    rcases List.mem_cons.1 hcr with rfl | hcr
    · omega
    · exact h4.pos cr hcr

section
variable {sqrt : ℚ → ℚ} {target : ℚ} {ranges : List (List Combo)} {b d : Nat} {s : Sim} {nT : Nat}

theorem prod_one : ∀ {l : List Nat}, (∀ x ∈ l, 0 < x) → l.prod ≤ 1 → ∀ x ∈ l, x = 1
  | [], _, _, x, hx => by cases hx
  | a :: l, h1, h2, x, hx => by
    rw [List.prod_cons] at h2
    have ha := h1 a (by simp)
    have hl : 0 < l.prod := List.prod_pos fun y hy => h1 y (by simp [hy])
    have h3 : l.prod ≤ 1 := by
      by_contra hn
      have : 1 * 2 ≤ a * l.prod := Nat.mul_le_mul ha (by omega)
      omega
    have h4 : a ≤ 1 := by
      by_contra hn
      have : 2 * 1 ≤ a * l.prod := Nat.mul_le_mul (by omega) hl
      omega
    rcases List.mem_cons.1 hx with rfl | hx
    · omega
    · exact prod_one (fun y hy => h1 y (by simp [hy])) h3 x hx

/-- Every player has a single hand: no attempt fails. -/
theorem McReady.known (hr : McReady ranges b d s) (h1 : ∀ r ∈ ranges, r.length ≤ 1)
    (hne : deals (specRanges ranges) (maskCards b ++ maskCards d) ≠ []) {w w' : Walk} {ds rest : Draws} {ok : Bool}
    (h : randomizeHoleCards s w ds = .ok (ok, w') rest) : ok = true := by
  obtain ⟨x, hx⟩ := hr.legal hne
  have hsz : ∀ cr ∈ s.combinedRanges, cr.size = 1 := by
    have hpos := hx.pos
    have hprod : (s.combinedRanges.map (·.size)).prod ≤ 1 := by
      obtain ⟨s0, h1', hsh, hs⟩ := hr.exact
      have ha := prepareExact_ok h1'
      have hcr : s0.combinedRanges = fromRanges (ranges.map fun h => removeConflictingCombos h b d) := by rw [ha.sim]; rfl
      have he : s.combinedRanges.map (·.size) = s0.combinedRanges.map (·.size) := by
        clear hcr ha h1' hs hx hpos
        generalize s0.combinedRanges = xs at hsh
        generalize s.combinedRanges = ys at hsh
        induction hsh with
        | nil => rfl
        | cons h _ ih => rw [List.map_cons, List.map_cons, ih, h.2.2.1]
      rw [he, hcr]
      refine (fromRanges_prod _).trans ?_
      clear he hcr ha h1' hsh hs hpos hx h hne hr
      induction ranges with
      | nil => simp
      | cons r ranges ih =>
        simp only [List.map_cons, List.prod_cons]
        exact Nat.mul_le_mul ((List.length_filter_le _ _).trans (h1 r (by simp))) (ih fun q hq => h1 q (by simp [hq]))
    intro cr hcr
    exact prod_one (l := s.combinedRanges.map (·.size)) (fun y hy => by
      obtain ⟨q, hq, rfl⟩ := List.mem_map.1 hy
      exact hpos q hq) hprod _ (List.mem_map_of_mem hcr)
  have h : attempts s (999 + 1) w ds = .ok (ok, w') rest := h
  unfold attempts at h
  split at h
  · cases h; rfl
  · rename_i hd
    cases dealLoop_known s.combinedRanges 0 { w with used := s.boardMask ||| s.deadMask } ds hsz ⟨x, hx⟩ _ _ _ hd
  · cases h
  · cases h

/-- A thread has completed a batch. -/
def McPc.after : McPc → Bool
  | .check => true
  | .final => true
  | .done => true
  | _ => false

def afterCount (w : McWorld) (nT : Nat) : Nat := (List.range nT).countP fun t => (w.locals t).pc.after

theorem known_batches (hr : McReady ranges b d s) (hno : ∀ w ds ok w' rest, randomizeHoleCards s w ds = .ok (ok, w') rest → ok = true)
    {r0 : Results} {cancelled : Bool} {w : McWorld} (hs : McSteps sqrt target s nT (McWorld.init s r0 cancelled) w) :
    4096 * afterCount w nT ≤ w.shared.results.evalCount := by
  induction hs with
  | refl =>
    have : afterCount (McWorld.init s r0 cancelled) nT = 0 := by
      unfold afterCount
      rw [List.countP_eq_zero]
      intro t _
      exact Bool.false_ne_true
    rw [this]
    omega
  | @step u v hsteps hstep ih =>
    obtain ⟨hist, Dr, Dl, hi⟩ := McInv.steps hr hsteps
    cases hstep with
    | cancel => exact ih
    | thread t ht hpc ds l g h =>
      have hd := countP_update (fun l : McLocal => l.pc.after) u.locals nT t ht l
      have hc := hi.evalCount ht
      have hA : afterCount { locals := Function.update u.locals t l, shared := g } nT =
        (List.range nT).countP fun i => (Function.update u.locals t l i).pc.after := rfl
      change 4096 * afterCount { locals := Function.update u.locals t l, shared := g } nT ≤ g.results.evalCount
      rw [hA]
      have hB : afterCount u nT = (List.range nT).countP fun i => (u.locals i).pc.after := rfl
      rw [hB] at ih
      suffices hsuff : 4096 * (if l.pc.after then 1 else 0) + u.shared.results.evalCount ≤
          g.results.evalCount + 4096 * (if (u.locals t).pc.after then 1 else 0) by omega
      unfold mcStep at h
      generalize u.locals t = l0 at *
      cases e : l0.pc <;> rw [e] at h hc hpc <;> simp only at h
      case done => exact absurd rfl hpc.1
      case panicked => exact absurd rfl hpc.2
      case flush =>
        cases h
        rw [update_evalCount]
        change l0.stats.evalCount = 4096 at hc
        rw [hc]
        simp [McPc.after, Nat.add_comm]
      case final =>
        cases h
        rw [update_evalCount]
        simp [McPc.after, Nat.add_comm]
      case check => cases h; by_cases hst : u.shared.stopped = true <;> simp [McPc.after, hst, Nat.add_comm]
      all_goals
        repeat' split at h
        all_goals first
          | (cases h; done)
          | (cases h; simp [McPc.after, Nat.add_comm]; done)
          | skip
      all_goals
        rename_i hd hok
        exact absurd (hno _ _ _ _ _ hd) hok

end
end Pokers
