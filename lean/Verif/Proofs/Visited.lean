import Verif.Proofs.McMean
import Verif.Proofs.Confined
/-!
# The deals of one batch
-/
namespace Pokers
open CombinedRange Sim Spec

/-- The lists of indexes visited from `x` on by the moves `moves`. -/
def visited (crs : List CombinedRange) (u : Nat) : List Nat → List Nat → List (List Nat)
  | x, [] => [x]
  | x, i :: moves => x :: visited crs u (nextIdx crs u x i) moves

theorem visited_length (crs : List CombinedRange) (u : Nat) : ∀ (moves x : List Nat), (visited crs u x moves).length = moves.length + 1
  | [], _ => rfl
  | i :: moves, x => by rw [visited, List.length_cons, List.length_cons, visited_length crs u moves]

theorem visited_snoc (crs : List CombinedRange) (u : Nat) : ∀ (moves x : List Nat) (i : Nat), visited crs u x (moves ++ [i]) =
    visited crs u x moves ++ [idxAfter crs u (moves ++ [i]) x]
  | [], _, _ => rfl
  | j :: moves, x, i => by
    show x :: visited crs u _ (moves ++ [i]) = _
    rw [visited_snoc crs u moves]
    rfl

theorem idxAfter_length (crs : List CombinedRange) (u : Nat) : ∀ (moves x : List Nat), (idxAfter crs u moves x).length = x.length
  | [], _ => rfl
  | i :: moves, x => by
    show (idxAfter crs u moves (nextIdx crs u x i)).length = _
    rw [idxAfter_length crs u moves, nextIdx_length]

/-- The visited lists one by one. -/
theorem visited_eq (crs : List CombinedRange) (u : Nat) : ∀ (moves x : List Nat), visited crs u x moves =
    (List.range (moves.length + 1)).map fun k => idxAfter crs u (moves.take k) x
  | [], _ => rfl
  | i :: moves, x => by
    rw [visited, visited_eq crs u moves, List.length_cons, List.range_succ_eq_map (n := moves.length + 1), List.map_cons, List.map_map]
    rfl

/-- The indexes of a walk. -/
def walkIdx (s : Sim) (w : Walk) : List Nat := (List.range s.combinedRanges.length).map w.indexes

theorem walkIdx_length (s : Sim) (w : Walk) : (walkIdx s w).length = s.combinedRanges.length := by unfold walkIdx; rw [List.length_map, List.length_range]

theorem walkIdx_points (s : Sim) (w : Walk) : Points w (walkIdx s w) := by
  intro i hi
  simp [walkIdx]

theorem points_unique {s : Sim} {w : Walk} {x : List Nat} (hp : Points w x) (hl : x.length = s.combinedRanges.length) : x = walkIdx s w := by
  refine List.ext_getElem (hl.trans (walkIdx_length s w).symm) fun i h1 h2 => ?_
  rw [← hp i h1, ← walkIdx_points s w i h2]

theorem dealAt_walk {s : Sim} {u : Nat} {w : Walk} {picks : List JointCombo} (h : WalkOk s.combinedRanges u w picks) :
    dealAt s (walkIdx s w) = handsAt s picks := by
  unfold dealAt handsAt
  rw [picksAt_eq h (walkIdx_points s w) (walkIdx_length s w)]

/-- A batch: the deals visited from a legal one on, each with a board. -/
def IsTrack (s : Sim) (u : Nat) (x moves : List Nat) : Prop :=
  LegalIdx s.combinedRanges u x ∧ ∀ i ∈ moves, i < s.combinedRanges.length

/-- Where a thread with the showdowns `D` in its counters is. -/
def OnTrack (s : Sim) (b d : Nat) (l : McLocal) (D : List (List WHand × List Nat)) : Prop :=
  (l.pc = .eval → ∃ x moves, IsTrack s (b ||| d) x moves ∧ idxAfter s.combinedRanges (b ||| d) moves x = walkIdx s l.walk ∧
      D.map Prod.fst ++ [dealAt s (walkIdx s l.walk)] = (visited s.combinedRanges (b ||| d) x moves).map (dealAt s)) ∧
    (l.pc = .move → D = [] ∨ ∃ x moves, IsTrack s (b ||| d) x moves ∧ idxAfter s.combinedRanges (b ||| d) moves x = walkIdx s l.walk ∧
      D.map Prod.fst = (visited s.combinedRanges (b ||| d) x moves).map (dealAt s)) ∧
    (l.pc = .flush → ∃ x moves, IsTrack s (b ||| d) x moves ∧ D.map Prod.fst = (visited s.combinedRanges (b ||| d) x moves).map (dealAt s))

/-- The results consist of batches. -/
def InTracks (s : Sim) (b d : Nat) (Dr : List (List WHand × List Nat)) : Prop :=
  ∃ batches : List (List (List WHand × List Nat)), Dr = batches.flatten ∧
    ∀ B ∈ batches, B.length = 4096 ∧ ∃ x moves, IsTrack s (b ||| d) x moves ∧ B.map Prod.fst = (visited s.combinedRanges (b ||| d) x moves).map (dealAt s)

section
variable {sqrt : ℚ → ℚ} {target : ℚ} {ranges : List (List Combo)} {b d : Nat} {s : Sim} {r0 : Results} {nT : Nat}

theorem track_update {locals : Nat → McLocal} {Dl : Nat → List (List WHand × List Nat)}
    (h : ∀ u < nT, OnTrack s b d (locals u) (Dl u)) {t : Nat} {l' : McLocal} {D' : List (List WHand × List Nat)} (h' : OnTrack s b d l' D') :
    ∀ u < nT, OnTrack s b d (Function.update locals t l' u) (Function.update Dl t D' u) := by
  intro u hu
  by_cases hut : u = t
  · subst hut; rw [Function.update_self, Function.update_self]; exact h'
  · rw [Function.update_of_ne hut, Function.update_of_ne hut]; exact h u hu

theorem track_quiet {locals : Nat → McLocal} {Dl : Nat → List (List WHand × List Nat)}
    (h : ∀ u < nT, OnTrack s b d (locals u) (Dl u)) {t : Nat} {l' : McLocal} (h' : OnTrack s b d l' (Dl t)) :
    ∀ u < nT, OnTrack s b d (Function.update locals t l' u) (Dl u) := by
  have := track_update h h' (t := t)
  rw [Function.update_eq_self] at this
  exact this

theorem McInv.tracks (hr : McReady ranges b d s) {w w' : McWorld}
    {hist : List (Batch × HandStats)} {Dr : List (List WHand × List Nat)} {Dl : Nat → List (List WHand × List Nat)}
    (h : McInv sqrt ranges b d s r0 nT w hist Dr Dl) (hR : InTracks s b d Dr) (hL : ∀ t < nT, OnTrack s b d (w.locals t) (Dl t))
    (hstep : McStep sqrt target s nT w w') : ∃ hist' Dr' Dl', McInv sqrt ranges b d s r0 nT w' hist' Dr' Dl' ∧ InTracks s b d Dr' ∧
      ∀ t < nT, OnTrack s b d (w'.locals t) (Dl' t) := by
  obtain ⟨hok, hpos⟩ := hr.crsOk
  cases hstep with
  | cancel => exact ⟨hist, Dr, Dl, ⟨h.res, h.sent, h.hids, h.hbatch, h.hsum, h.hcount, h.loc, h.fresh, h.len, h.ids, h.legalR, h.legalL, h.walk,
      h.outside, h.fine⟩, hR, hL⟩
  | thread t ht hpc ds l g hs =>
    obtain ⟨hist', Dr', Dl', hi', hmv⟩ := h.moves hr ht hpc hs
    refine ⟨hist', Dr', Dl', hi', ?_⟩
    have hwalk' := hi'.walk t ht
    have hlen' := hi'.len t ht
    rw [show (McWorld.locals _ t) = l from Function.update_self ..] at hwalk' hlen'
    have hlen := h.len t ht
    unfold Moves at hmv
    unfold mcStep at hs
    -- the beginning of a batch
    have hbegin : Dl' = Dl → (Dl t).length = 0 → OnTrack s b d l (Dl t) := by
      intro hD h0
      rw [hD] at hlen'
      have h0' := List.length_eq_zero_iff.1 h0
      refine ⟨fun he => ?_, fun hm => Or.inl h0', fun hf => ?_⟩
      · obtain ⟨picks, hw⟩ := hwalk' (Or.inl he)
        refine ⟨walkIdx s l.walk, [], ⟨hw.legalIdx hok (walkIdx_points s _) (walkIdx_length s _), by simp⟩, rfl, ?_⟩
        rw [h0']
        rfl
      · rw [hf] at hlen'
        have : (Dl t).length = 4096 := hlen'
        omega
    cases hc : (w.locals t).pc with
    | start =>
      rw [hc] at hlen hmv
      obtain ⟨rfl, rfl⟩ := hmv
      exact ⟨hR, track_quiet hL (hbegin rfl hlen)⟩
    | check =>
      rw [hc] at hlen hmv
      obtain ⟨rfl, rfl⟩ := hmv
      exact ⟨hR, track_quiet hL (hbegin rfl hlen)⟩
    | restart =>
      rw [hc] at hlen hmv
      obtain ⟨rfl, rfl⟩ := hmv
      exact ⟨hR, track_quiet hL (hbegin rfl hlen)⟩
    | eval =>
      rw [hc] at hs hlen hmv
      simp only at hs
      obtain ⟨rfl, picks, B, hw, rfl⟩ := hmv
      obtain ⟨k1, _, _⟩ := hL t ht
      obtain ⟨x, moves, hx, hx2, hx3⟩ := k1 hc
      have edeal : dealAt s (walkIdx s (w.locals t).walk) = handsAt s picks := dealAt_walk hw
      obtain ⟨dd, hdd, hatd⟩ := hr.atDeal hw (h.outside t ht)
      obtain ⟨_, hev⟩ := hr.evalDeal hdd hatd ds
      cases ho : evalDeal s (w.locals t) ds with
      | more => rw [ho] at hs; cases hs
      | panic => exact absurd ho (hr.evalDeal hdd hatd ds).1
      | ok l1 rest =>
        obtain ⟨_, _, _, _, g3, _⟩ := hev _ _ ho
        rw [ho] at hs
        injection hs with hs _
        injection hs with hl hg
        have hD : ((Dl t ++ [((List.range s.nPlayers).map (writeAll s.combinedRanges picks (fun _ => (52, 52, 100))), B)]).map Prod.fst) =
            (visited s.combinedRanges (b ||| d) x moves).map (dealAt s) := by
          rw [← hx3, edeal, List.map_append]
          rfl
        refine ⟨hR, track_update hL ⟨fun he => ?_, fun _ => Or.inr ⟨x, moves, hx, ?_, hD⟩, fun _ => ⟨x, moves, hx, hD⟩⟩⟩
        · exfalso
          rw [← hl] at he
          simp only at he
          split at he <;> cases he
        · rw [hx2, ← hl]
          show walkIdx s _ = walkIdx s l1.walk
          rw [g3]
    | flush =>
      rw [hc] at hs hlen hmv
      simp only at hs
      obtain ⟨rfl, rfl⟩ := hmv
      injection hs with hs _
      injection hs with hl hg
      obtain ⟨_, _, k1⟩ := hL t ht
      obtain ⟨batches, rfl, hB⟩ := hR
      refine ⟨⟨batches ++ [Dl t], by simp, ?_⟩, track_update hL ⟨fun he => ?_, fun he => ?_, fun he => ?_⟩⟩
      · intro B hm
        rcases List.mem_append.1 hm with hm | hm
        · exact hB B hm
        · rw [List.mem_singleton] at hm; subst hm; exact ⟨hlen, k1 hc⟩
      · rw [← hl] at he; cases he
      · rw [← hl] at he; cases he
      · rw [← hl] at he; cases he
    | move =>
      rw [hc] at hs hlen hmv
      simp only at hs
      obtain ⟨rfl, rfl⟩ := hmv
      obtain ⟨_, k3, _⟩ := hL t ht
      have k3 := k3 hc
      obtain ⟨picks, hw⟩ := h.walk t ht (Or.inr hc)
      refine ⟨hR, track_quiet hL ?_⟩
      cases ho : sample s.combinedRanges.length ds with
      | more => rw [ho] at hs; cases hs
      | panic => exact absurd ho (sample_no_panic _ _)
      | ok i rest =>
        rw [ho] at hs
        simp only at hs
        obtain ⟨hi, _⟩ := sample_ok ho
        obtain ⟨w1, c, e1, _, hw1, _⟩ := redeal_spec hok hw hi
        have hnext : nextIdx s.combinedRanges (b ||| d) (walkIdx s (w.locals t).walk) i = walkIdx s w1 :=
          points_unique (nextIdx_points hok hw (walkIdx_points s _) (walkIdx_length s _) hi e1) (by rw [nextIdx_length, walkIdx_length])
        rw [List.getElem?_eq_getElem hi] at hs
        simp only at hs
        rw [e1] at hs
        injection hs with hs _
        injection hs with hl hg
        refine ⟨fun _ => ?_, (fun he => by rw [← hl] at he; cases he), (fun he => by rw [← hl] at he; cases he)⟩
        rw [← hl]
        show ∃ x moves, IsTrack s (b ||| d) x moves ∧ _ = walkIdx s w1 ∧ _ ++ [dealAt s (walkIdx s w1)] = _
        rcases k3 with k3 | ⟨x, moves, hx, hx2, hx3⟩
        · refine ⟨walkIdx s w1, [], ⟨hw1.legalIdx hok (walkIdx_points s _) (walkIdx_length s _), by simp⟩, rfl, ?_⟩
          rw [k3]
          rfl
        · have e : idxAfter s.combinedRanges (b ||| d) (moves ++ [i]) x = walkIdx s w1 := by
            unfold idxAfter at hx2 ⊢
            rw [List.foldl_append, hx2]
            exact hnext
          refine ⟨x, moves ++ [i], ⟨hx.1, fun j hj => ?_⟩, e, ?_⟩
          · rcases List.mem_append.1 hj with hj | hj
            · exact hx.2 j hj
            · rw [List.mem_singleton] at hj; rw [hj]; exact hi
          · rw [visited_snoc, e, List.map_append, hx3]
            rfl
    | final =>
      rw [hc] at hs hlen hmv
      simp only at hs
      obtain ⟨rfl, rfl⟩ := hmv
      injection hs with hs _
      injection hs with hl hg
      have h0 := List.length_eq_zero_iff.1 hlen
      refine ⟨by rw [h0, List.append_nil]; exact hR, track_update hL ⟨fun he => ?_, fun he => ?_, fun he => ?_⟩⟩
      · rw [← hl] at he; cases he
      · rw [← hl] at he; cases he
      · rw [← hl] at he; cases he
    | done => exact absurd hc hpc.1
    | panicked => exact absurd hc hpc.2

theorem McInv.steps_tracks (hr : McReady ranges b d s) {cancelled : Bool} {w : McWorld}
    (hs : McSteps sqrt target s nT (McWorld.init s r0 cancelled) w) :
    ∃ hist Dr Dl, McInv sqrt ranges b d s r0 nT w hist Dr Dl ∧ InTracks s b d Dr := by
  have : ∃ hist Dr Dl, McInv sqrt ranges b d s r0 nT w hist Dr Dl ∧ InTracks s b d Dr ∧ ∀ t < nT, OnTrack s b d (w.locals t) (Dl t) := by
    induction hs with
    | refl =>
      exact ⟨_, _, _, McInv.init sqrt ranges b d s r0 nT cancelled, ⟨[], rfl, by simp⟩, fun t _ => ⟨(fun h => by cases h), (fun h => by cases h),
        (fun h => by cases h)⟩⟩
    | step _ hstep ih =>
      obtain ⟨_, _, _, h, hR, hL⟩ := ih
      exact h.tracks hr hR hL hstep
  obtain ⟨hist, Dr, Dl, h, hR, _⟩ := this
  exact ⟨hist, Dr, Dl, h, hR⟩

end

end Pokers
