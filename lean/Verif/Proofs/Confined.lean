import Verif.Proofs.McRun
import Verif.Spec.Groups
/-!
# The random walk with several combined ranges

Each step deals new hands to the players of one combined range.
-/
namespace Pokers
open CombinedRange Sim Spec

/-- The players of each combined range. -/
def groupsOf (s : Sim) : List (List Nat) := s.combinedRanges.map playersOf

/-- The hands dealt by combos. -/
def handsAt (s : Sim) (picks : List JointCombo) : List WHand :=
  (List.range s.nPlayers).map (writeAll s.combinedRanges picks (fun _ => (52, 52, 100)))

theorem writeHands_congr (cr : CombinedRange) (c : JointCombo) {ph ph' : Nat → Hole} {p : Nat} (h : ph p = ph' p) :
    writeHands cr c ph p = writeHands cr c ph' p := by
  rw [writeHands_eq, writeHands_eq]
  generalize List.range cr.playerCount = js
  induction js generalizing ph ph' with
  | nil => exact h
  | cons j js ih =>
    rw [List.foldl_cons, List.foldl_cons]
    refine ih ?_
    by_cases hp : p = cr.players j
    · subst hp; rw [Function.update_self, Function.update_self]
    · rw [Function.update_of_ne hp, Function.update_of_ne hp]; exact h

theorem writeAll_congr : ∀ (crs : List CombinedRange) (picks : List JointCombo) {ph ph' : Nat → Hole} {p : Nat}, ph p = ph' p →
    writeAll crs picks ph p = writeAll crs picks ph' p := by
  intro crs
  induction crs with
  | nil => intro picks ph ph' p h; exact h
  | cons cr crs ih =>
    intro picks ph ph' p h
    cases picks with
    | nil => exact h
    | cons c cs => exact ih cs (writeHands_congr cr c h)

theorem writeAll_set : ∀ (crs : List CombinedRange) (picks : List JointCombo) (ph : Nat → Hole) {i : Nat} (hi : i < crs.length) (c : JointCombo)
    {p : Nat}, p ∉ playersOf crs[i] → writeAll crs (picks.set i c) ph p = writeAll crs picks ph p := by
  intro crs
  induction crs with
  | nil => intro _ _ i hi; cases hi
  | cons cr crs ih =>
    intro picks ph i hi c p hp
    cases picks with
    | nil => rfl
    | cons c0 cs =>
      cases i with
      | zero =>
        refine writeAll_congr crs cs ?_
        have hp : p ∉ playersOf cr := hp
        rw [writeHands_other _ _ _ hp, writeHands_other _ _ _ hp]
      | succ i => exact ih cs _ (Nat.lt_of_succ_lt_succ hi) c hp

theorem oneGroup_set {s : Sim} (picks : List JointCombo) {i : Nat} (hi : i < s.combinedRanges.length) (c : JointCombo) :
    OneGroup (groupsOf s) (handsAt s picks) (handsAt s (picks.set i c)) := by
  refine ⟨playersOf s.combinedRanges[i], List.mem_map_of_mem (List.getElem_mem hi), fun p hp => ?_⟩
  unfold handsAt
  rw [List.getElem?_map, List.getElem?_map]
  by_cases hlt : p < s.nPlayers
  · rw [List.getElem?_range hlt, Option.map_some, Option.map_some, writeAll_set _ _ _ hi c hp]
  · rw [List.getElem?_eq_none (by rw [List.length_range]; omega)]; rfl

/-- A walk is at one list of combos. -/
theorem WalkOk.unique {crs : List CombinedRange} {u : Nat} {w : Walk} {p q : List JointCombo} (hp : WalkOk crs u w p) (hq : WalkOk crs u w q) : p = q := by
  refine List.ext_getElem? fun i => ?_
  by_cases hi : i < crs.length
  · rw [← hp.index i hi, ← hq.index i hi]
  · rw [List.getElem?_eq_none (by rw [hp.len]; omega), List.getElem?_eq_none (by rw [hq.len]; omega)]

/-- Where thread `t`, with the showdowns `D` in its counters, is. -/
def OnPath (s : Sim) (b d : Nat) (l : McLocal) (D : List (List WHand × List Nat)) : Prop :=
  (D.map Prod.fst).IsChain (OneGroup (groupsOf s)) ∧
    (l.pc = .eval → ∃ picks, WalkOk s.combinedRanges (b ||| d) l.walk picks ∧
      ∀ x ∈ (D.map Prod.fst).getLast?, OneGroup (groupsOf s) x (handsAt s picks)) ∧
    (l.pc = .move → ∃ picks, WalkOk s.combinedRanges (b ||| d) l.walk picks ∧ ∀ x ∈ (D.map Prod.fst).getLast?, x = handsAt s picks)

/-- The results consist of batches, in each of which one group changes at a time. -/
def InPaths (s : Sim) (Dr : List (List WHand × List Nat)) : Prop :=
  ∃ batches : List (List (List WHand × List Nat)), Dr = batches.flatten ∧
    ∀ B ∈ batches, B.length = 4096 ∧ (B.map Prod.fst).IsChain (OneGroup (groupsOf s))

section
variable {sqrt : ℚ → ℚ} {target : ℚ} {ranges : List (List Combo)} {b d : Nat} {s : Sim} {r0 : Results} {nT : Nat}

theorem path_update {locals : Nat → McLocal} {Dl : Nat → List (List WHand × List Nat)}
    (h : ∀ u < nT, OnPath s b d (locals u) (Dl u)) {t : Nat} {l' : McLocal} {D' : List (List WHand × List Nat)} (h' : OnPath s b d l' D') :
    ∀ u < nT, OnPath s b d (Function.update locals t l' u) (Function.update Dl t D' u) := by
  intro u hu
  by_cases hut : u = t
  · subst hut; rw [Function.update_self, Function.update_self]; exact h'
  · rw [Function.update_of_ne hut, Function.update_of_ne hut]; exact h u hu

theorem path_quiet {locals : Nat → McLocal} {Dl : Nat → List (List WHand × List Nat)}
    (h : ∀ u < nT, OnPath s b d (locals u) (Dl u)) {t : Nat} {l' : McLocal} (h' : OnPath s b d l' (Dl t)) :
    ∀ u < nT, OnPath s b d (Function.update locals t l' u) (Dl u) := by
  have := path_update h h' (t := t)
  rw [Function.update_eq_self] at this
  exact this

theorem McInv.paths (hr : McReady ranges b d s) {w w' : McWorld}
    {hist : List (Batch × HandStats)} {Dr : List (List WHand × List Nat)} {Dl : Nat → List (List WHand × List Nat)}
    (h : McInv sqrt ranges b d s r0 nT w hist Dr Dl) (hR : InPaths s Dr) (hL : ∀ t < nT, OnPath s b d (w.locals t) (Dl t))
    (hstep : McStep sqrt target s nT w w') : ∃ hist' Dr' Dl', McInv sqrt ranges b d s r0 nT w' hist' Dr' Dl' ∧ InPaths s Dr' ∧
      ∀ t < nT, OnPath s b d (w'.locals t) (Dl' t) := by
  obtain ⟨hok, hpos⟩ := hr.crsOk
  cases hstep with
  | cancel => exact ⟨hist, Dr, Dl, ⟨h.res, h.sent, h.hids, h.hbatch, h.hsum, h.hcount, h.loc, h.fresh, h.len, h.ids, h.legalR, h.legalL, h.walk,
      h.outside, h.fine⟩, hR, hL⟩
  | thread t ht hpc ds l g hs =>
    obtain ⟨hist', Dr', Dl', hi', hmv⟩ := h.moves hr ht hpc hs
    refine ⟨hist', Dr', Dl', hi', ?_⟩
    have hwalk' := hi'.walk t ht
    rw [show (McWorld.locals _ t) = l from Function.update_self ..] at hwalk'
    have hlen := h.len t ht
    unfold Moves at hmv
    unfold mcStep at hs
    -- the beginning of a batch
    have hbegin : (Dl t).length = 0 → OnPath s b d l (Dl t) := by
      intro h0
      rw [List.length_eq_zero_iff.1 h0]
      refine ⟨List.IsChain.nil, fun he => ?_, fun hm => ?_⟩
      · obtain ⟨picks, hw⟩ := hwalk' (Or.inl he)
        exact ⟨picks, hw, by simp⟩
      · obtain ⟨picks, hw⟩ := hwalk' (Or.inr hm)
        exact ⟨picks, hw, by simp⟩
    cases hc : (w.locals t).pc with
    | start =>
      rw [hc] at hlen hmv
      obtain ⟨rfl, rfl⟩ := hmv
      exact ⟨hR, path_quiet hL (hbegin hlen)⟩
    | check =>
      rw [hc] at hlen hmv
      obtain ⟨rfl, rfl⟩ := hmv
      exact ⟨hR, path_quiet hL (hbegin hlen)⟩
    | restart =>
      rw [hc] at hlen hmv
      obtain ⟨rfl, rfl⟩ := hmv
      exact ⟨hR, path_quiet hL (hbegin hlen)⟩
    | eval =>
      rw [hc] at hs hlen hmv
      simp only at hs
      obtain ⟨rfl, picks, B, hw, rfl⟩ := hmv
      obtain ⟨k1, k2, _⟩ := hL t ht
      obtain ⟨picks', hw', k2⟩ := k2 hc
      obtain rfl := hw'.unique hw
      obtain ⟨dd, hdd, hatd⟩ := hr.atDeal hw (h.outside t ht)
      obtain ⟨_, hev⟩ := hr.evalDeal hdd hatd ds
      cases ho : evalDeal s (w.locals t) ds with
      | more => rw [ho] at hs; cases hs
      | panic => exact absurd ho (hr.evalDeal hdd hatd ds).1
      | ok l1 rest =>
        obtain ⟨_, _, _, _, g3, _⟩ := hev _ _ ho
        rw [ho] at hs
        injection hs with hs _
        injection hs with hl hg
        refine ⟨hR, path_update hL ⟨?_, fun he => ?_, fun _ => ?_⟩⟩
        · rw [List.map_append, List.map_singleton]
          refine List.IsChain.append k1 (List.isChain_singleton _) fun x hx y hy => ?_
          obtain rfl := Option.mem_some.1 hy
          exact k2 x hx
        · exfalso
          rw [← hl] at he
          simp only at he
          split at he <;> cases he
        · refine ⟨picks', ?_, fun x hx => ?_⟩
          · rw [← hl]
            show WalkOk _ _ l1.walk _
            rw [g3]
            exact hw
          · rw [List.map_append, List.map_singleton, List.getLast?_concat] at hx
            exact (Option.mem_some.1 hx).symm
    | flush =>
      rw [hc] at hs hlen hmv
      simp only at hs
      obtain ⟨rfl, rfl⟩ := hmv
      injection hs with hs _
      injection hs with hl hg
      obtain ⟨k1, _⟩ := hL t ht
      obtain ⟨batches, rfl, hB⟩ := hR
      refine ⟨⟨batches ++ [Dl t], by simp, ?_⟩, path_update hL ⟨List.IsChain.nil, fun he => ?_, fun he => ?_⟩⟩
      · intro B hm
        rcases List.mem_append.1 hm with hm | hm
        · exact hB B hm
        · rw [List.mem_singleton] at hm; subst hm; exact ⟨hlen, k1⟩
      · rw [← hl] at he; cases he
      · rw [← hl] at he; cases he
    | move =>
      rw [hc] at hs hlen hmv
      simp only at hs
      obtain ⟨rfl, rfl⟩ := hmv
      obtain ⟨k1, _, k3⟩ := hL t ht
      obtain ⟨picks, hw, k3⟩ := k3 hc
      refine ⟨hR, path_quiet hL ?_⟩
      cases ho : sample s.combinedRanges.length ds with
      | more => rw [ho] at hs; cases hs
      | panic => exact absurd ho (sample_no_panic _ _)
      | ok i rest =>
        rw [ho] at hs
        simp only at hs
        obtain ⟨hi, _⟩ := sample_ok ho
        obtain ⟨w1, c, e1, _, hw1, _⟩ := redeal_spec hok hw hi
        rw [List.getElem?_eq_getElem hi] at hs
        simp only at hs
        rw [e1] at hs
        injection hs with hs _
        injection hs with hl hg
        refine ⟨k1, fun _ => ⟨picks.set i c, ?_, fun x hx => ?_⟩, fun he => ?_⟩
        · rw [← hl]; exact hw1
        · rw [k3 x hx]; exact oneGroup_set picks hi c
        · rw [← hl] at he; cases he
    | final =>
      rw [hc] at hs hlen hmv
      simp only at hs
      obtain ⟨rfl, rfl⟩ := hmv
      injection hs with hs _
      injection hs with hl hg
      have h0 := List.length_eq_zero_iff.1 hlen
      refine ⟨by rw [h0, List.append_nil]; exact hR, path_update hL ⟨List.IsChain.nil, fun he => ?_, fun he => ?_⟩⟩
      · rw [← hl] at he; cases he
      · rw [← hl] at he; cases he
    | done => exact absurd hc hpc.1
    | panicked => exact absurd hc hpc.2

theorem McInv.steps_paths (hr : McReady ranges b d s) {cancelled : Bool} {w : McWorld}
    (hs : McSteps sqrt target s nT (McWorld.init s r0 cancelled) w) :
    ∃ hist Dr Dl, McInv sqrt ranges b d s r0 nT w hist Dr Dl ∧ InPaths s Dr := by
  have : ∃ hist Dr Dl, McInv sqrt ranges b d s r0 nT w hist Dr Dl ∧ InPaths s Dr ∧ ∀ t < nT, OnPath s b d (w.locals t) (Dl t) := by
    induction hs with
    | refl =>
      refine ⟨_, _, _, McInv.init sqrt ranges b d s r0 nT cancelled, ⟨[], rfl, by simp⟩, fun t _ => ⟨List.IsChain.nil, ?_, ?_⟩⟩
      · intro he; cases he
      · intro he; cases he
    | step _ hstep ih =>
      obtain ⟨_, _, _, h, hR, hL⟩ := ih
      exact h.paths hr hR hL hstep
  obtain ⟨hist, Dr, Dl, h, hR, _⟩ := this
  exact ⟨hist, Dr, Dl, h, hR⟩

end

end Pokers
