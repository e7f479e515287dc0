import Verif.Proofs.McLive
/-!
# The deals of the random walk, over all equally likely first deals
-/
namespace Pokers
open CombinedRange Sim Spec

/-- All lists of indexes of combos that can be dealt together. -/
def legalIdxs : List CombinedRange → Nat → List (List Nat)
  | [], _ => [[]]
  | cr :: rest, u => (List.range cr.combos.length).flatMap fun k =>
      match cr.combos[k]? with
      | none => []
      | some c => if u &&& c.mask ≠ 0 then [] else (legalIdxs rest (u ||| c.mask)).map (k :: ·)

theorem mem_legalIdxs : ∀ (crs : List CombinedRange) (u : Nat) (x : List Nat), (∀ cr ∈ crs, cr.size = cr.combos.length) →
    (x ∈ legalIdxs crs u ↔ LegalIdx crs u x) := by
  intro crs
  induction crs with
  | nil =>
    intro u x _
    cases x with
    | nil => simp [legalIdxs, LegalIdx]
    | cons a l => simp [legalIdxs, LegalIdx]
  | cons cr rest ih =>
    intro u x hs
    have hrest := fun u x => ih u x (fun cr h => hs cr (List.mem_cons_of_mem _ h))
    have hsz := hs cr (List.mem_cons_self ..)
    rw [legalIdxs, List.mem_flatMap]
    constructor
    · rintro ⟨k, hk, hx⟩
      have hk := List.mem_range.1 hk
      rw [List.getElem?_eq_getElem hk] at hx
      simp only at hx
      split at hx
      · cases hx
      · rename_i hc
        obtain ⟨y, hy, rfl⟩ := List.mem_map.1 hx
        exact ⟨by omega, _, List.getElem?_eq_getElem hk, not_not.1 hc, (hrest _ _).1 hy⟩
    · intro h
      cases x with
      | nil => exact absurd h (by unfold LegalIdx; exact id)
      | cons k xs =>
        obtain ⟨hk, c, hc, hm, hl⟩ := h
        refine ⟨k, List.mem_range.2 (by omega), ?_⟩
        rw [hc]
        simp only
        rw [if_neg (not_not.2 hm)]
        exact List.mem_map.2 ⟨xs, (hrest _ _).2 hl, rfl⟩

theorem legalIdxs_nodup : ∀ (crs : List CombinedRange) (u : Nat), (legalIdxs crs u).Nodup := by
  intro crs
  induction crs with
  | nil => intro u; simp [legalIdxs]
  | cons cr rest ih =>
    intro u
    rw [legalIdxs, List.nodup_flatMap]
    refine ⟨fun k _ => ?_, ?_⟩
    · split
      · exact List.nodup_nil
      · split
        · exact List.nodup_nil
        · exact (ih _).map (fun a b h => by injection h)
    · refine List.Pairwise.imp ?_ List.nodup_range
      intro k k' hne y hy hy'
      have key : ∀ k, y ∈ (match cr.combos[k]? with
          | none => []
          | some c => if u &&& c.mask ≠ 0 then [] else (legalIdxs rest (u ||| c.mask)).map (k :: ·)) → ∃ t, y = k :: t := by
        intro k h
        split at h
        · cases h
        · split at h
          · cases h
          · obtain ⟨t, _, rfl⟩ := List.mem_map.1 h
            exact ⟨t, rfl⟩
      obtain ⟨t, e⟩ := key k hy
      obtain ⟨t', e'⟩ := key k' hy'
      rw [e] at e'
      injection e' with e1 e2
      exact hne e1

/-- The combos with these indexes. -/
def picksAt (crs : List CombinedRange) (x : List Nat) : List JointCombo :=
  List.zipWith (fun cr k => cr.combos.getD k JointCombo.new) crs x

/-- The lists of indexes are the deals. -/
theorem legalIdxs_deals : ∀ (crs : List CombinedRange) (u : Nat) (ph : Nat → Hole),
    (((legalIdxs crs u).map fun x => (orMasks u (picksAt crs x), writeAll crs (picksAt crs x) ph) : List (Nat × (Nat → Hole))) :
      Multiset (Nat × (Nat → Hole))) = dealsOf crs u ph := by
  intro crs
  induction crs with
  | nil => intro u ph; rfl
  | cons cr rest ih =>
    intro u ph
    rw [legalIdxs, dealsOf, List.map_flatMap, ← Multiset.coe_bind,
      ← bind_getElem? cr.combos (fun o => match o with
        | none => 0
        | some c => if u &&& c.mask ≠ 0 then 0 else dealsOf rest (u ||| c.mask) (writeHands cr c ph))]
    apply Multiset.bind_congr
    intro k hk
    have hk : k < cr.combos.length := List.mem_range.1 (Multiset.mem_coe.1 hk)
    rw [List.getElem?_eq_getElem hk]
    simp only
    split
    · rfl
    · rw [← ih, List.map_map]
      congr 1
      apply List.map_congr_left
      intro y _
      show (orMasks u (cr.combos.getD k JointCombo.new :: picksAt rest y),
        writeAll (cr :: rest) (cr.combos.getD k JointCombo.new :: picksAt rest y) ph) = _
      rw [List.getD_eq_getElem _ _ hk]
      rfl

theorem picksAt_eq {crs : List CombinedRange} {u : Nat} {w : Walk} {picks : List JointCombo} (h : WalkOk crs u w picks) {x : List Nat}
    (hp : Points w x) (hl : x.length = crs.length) : picksAt crs x = picks := by
  unfold picksAt
  apply List.ext_getElem
  · rw [List.length_zipWith, hl, h.len, Nat.min_self]
  · intro i h1 h2
    have hi : i < crs.length := by rw [← h.len]; exact h2
    have hix : i < x.length := by omega
    have := h.index i hi
    rw [hp i hix, List.getElem?_eq_getElem h2] at this
    rw [List.getElem_zipWith, List.getD_eq_getElem?_getD, this]
    rfl

theorem legalIdx_of : ∀ (crs : List CombinedRange) (u : Nat) (x : List Nat) (picks : List JointCombo),
    (∀ cr ∈ crs, cr.size = cr.combos.length) → x.length = crs.length → picks.length = crs.length →
    (∀ i (h1 : i < crs.length) (h2 : i < x.length), crs[i].combos[x[i]]? = picks[i]?) →
    ((u :: picks.map (·.mask)).Pairwise fun a b => a &&& b = 0) → LegalIdx crs u x := by
  intro crs
  induction crs with
  | nil =>
    intro u x picks _ hx _ _ _
    have := List.length_eq_zero_iff.1 hx
    subst this
    trivial
  | cons cr rest ih =>
    intro u x picks hs hx hpl hidx hd
    cases x with
    | nil => simp at hx
    | cons k xs =>
      cases picks with
      | nil => simp at hpl
      | cons c cs =>
        have h0 := hidx 0 (by simp) (by simp)
        simp only [List.getElem_cons_zero, List.getElem?_cons_zero] at h0
        have hk : k < cr.combos.length := by
          by_contra hcon
          rw [List.getElem?_eq_none (by omega)] at h0
          cases h0
        rw [List.map_cons, List.pairwise_cons, List.pairwise_cons] at hd
        refine ⟨by rw [hs cr (List.mem_cons_self ..)]; exact hk, c, h0, hd.1 _ (List.mem_cons_self ..), ?_⟩
        refine ih _ xs cs (fun cr h => hs cr (List.mem_cons_of_mem _ h)) (by simpa using hx) (by simpa using hpl) ?_ ?_
        · intro i h1 h2
          have := hidx (i + 1) (by simpa using h1) (by simpa using h2)
          simpa using this
        · rw [List.pairwise_cons]
          refine ⟨fun y hy => ?_, hd.2.2⟩
          rw [or_and_eq_zero]
          exact ⟨hd.1 y (List.mem_cons_of_mem _ hy), hd.2.1 y hy⟩

theorem WalkOk.legalIdx {crs : List CombinedRange} (hok : CrsOk crs) {u : Nat} {w : Walk} {picks : List JointCombo}
    (h : WalkOk crs u w picks) {x : List Nat} (hp : Points w x) (hl : x.length = crs.length) : LegalIdx crs u x :=
  legalIdx_of crs u x picks hok.size hl h.len (fun i h1 h2 => by rw [← hp i h2]; exact h.index i h1) h.disj

/-- The indexes after the `i`-th combined range has been dealt new hands. -/
def nextIdx (crs : List CombinedRange) (u : Nat) (x : List Nat) (i : Nat) : List Nat :=
  match crs[i]? with
  | none => x
  | some cr => x.set i ((redealLoop cr (othersUsed u (picksAt crs x) i) cr.size (x.getD i 0)).getD 0)

theorem nextIdx_length (crs : List CombinedRange) (u : Nat) (x : List Nat) (i : Nat) : (nextIdx crs u x i).length = x.length := by
  unfold nextIdx
  split
  · rfl
  · rw [List.length_set]

theorem nextIdx_points {crs : List CombinedRange} (hok : CrsOk crs) {u : Nat} {w w' : Walk} {picks : List JointCombo}
    (h : WalkOk crs u w picks) {x : List Nat} (hp : Points w x) (hl : x.length = crs.length) {i : Nat} (hi : i < crs.length)
    (hr : redeal crs[i] i w = some w') : Points w' (nextIdx crs u x i) := by
  obtain ⟨_, w2, idx, c, h1, h2, h3, _, _⟩ := redeal_index hok h hi
  rw [h1] at hr
  injection hr with hr
  subst hr
  have hix : i < x.length := by omega
  have e : nextIdx crs u x i = x.set i idx := by
    unfold nextIdx
    rw [List.getElem?_eq_getElem hi]
    show x.set i ((redealLoop crs[i] (othersUsed u (picksAt crs x) i) crs[i].size (x.getD i 0)).getD 0) = _
    rw [picksAt_eq h hp hl, List.getD_eq_getElem _ _ hix, ← hp i hix, h2]
    rfl
  intro j hj
  rw [h3]
  by_cases hji : j = i
  · subst hji
    rw [Function.update_self]
    simp [e]
  · rw [Function.update_of_ne hji]
    have hjx : j < x.length := by rw [nextIdx_length] at hj; exact hj
    rw [hp j hjx]
    simp only [e]
    rw [List.getElem_set_ne (Ne.symm hji)]

section
variable {ranges : List (List Combo)} {b d : Nat} {s : Sim}

theorem McReady.walk (h : McReady ranges b d s) {x : List Nat} (hx : LegalIdx s.combinedRanges (b ||| d) x) (w0 : Walk)
    (ho : Outside s.combinedRanges w0) :
    ∃ w picks, randomizeHoleCards s w0 x = .ok (true, w) [] ∧ WalkOk s.combinedRanges (b ||| d) w picks ∧ Points w x ∧
      Outside s.combinedRanges w := by
  have hf := h.fields
  rw [← hf.2.1, ← hf.2.2.1] at hx
  obtain ⟨w, hw, hp⟩ := attempts_legal s 999 w0 hx
  obtain ⟨h1, h2⟩ := (randomizeHoleCards_spec s h.crsOk.1 ho x).2 true w [] hw
  obtain ⟨picks, h2⟩ := h2 rfl
  rw [hf.2.1, hf.2.2.1] at h2
  exact ⟨w, picks, hw, h2, hp, h1⟩

theorem McReady.nextIdx_perm (h : McReady ranges b d s) {i : Nat} (hi : i < s.combinedRanges.length) :
    ((legalIdxs s.combinedRanges (b ||| d)).map fun x => nextIdx s.combinedRanges (b ||| d) x i).Perm
      (legalIdxs s.combinedRanges (b ||| d)) := by
  have hok := h.crsOk.1
  have hmem := fun x => mem_legalIdxs s.combinedRanges (b ||| d) x hok.size
  have key : ∀ x ∈ legalIdxs s.combinedRanges (b ||| d), ∃ w picks w' picks', WalkOk s.combinedRanges (b ||| d) w picks ∧
      Points w x ∧ redeal s.combinedRanges[i] i w = some w' ∧ WalkOk s.combinedRanges (b ||| d) w' picks' ∧
      Points w' (nextIdx s.combinedRanges (b ||| d) x i) ∧ x.length = s.combinedRanges.length := by
    intro x hx
    have hx := (hmem x).1 hx
    obtain ⟨w, picks, _, h2, h3, _⟩ := h.walk hx Walk.init (fun _ _ => rfl)
    obtain ⟨w', picks', h4, h5⟩ := (redeal_bijective hok (u := b ||| d) hi).1 w picks h2
    exact ⟨w, picks, w', picks', h2, h3, h4, h5, nextIdx_points hok h2 h3 hx.length hi h4, hx.length⟩
  have hinj : ∀ x ∈ legalIdxs s.combinedRanges (b ||| d), ∀ y ∈ legalIdxs s.combinedRanges (b ||| d),
      nextIdx s.combinedRanges (b ||| d) x i = nextIdx s.combinedRanges (b ||| d) y i → x = y := by
    intro x hx y hy he
    obtain ⟨w1, p1, v1, q1, a1, a2, a3, a4, a5, a6⟩ := key x hx
    obtain ⟨w2, p2, v2, q2, b1, b2, b3, b4, b5, b6⟩ := key y hy
    have := (redeal_bijective hok (u := b ||| d) hi).2.2 w1 w2 p1 p2 v1 v2 a1 b1 a3 b3 (fun j hj => by
      have l1 : j < (nextIdx s.combinedRanges (b ||| d) x i).length := by rw [nextIdx_length]; omega
      have l2 : j < (nextIdx s.combinedRanges (b ||| d) y i).length := by rw [nextIdx_length]; omega
      rw [a5 j l1, b5 j l2]
      simp only [he])
    apply List.ext_getElem (a6.trans b6.symm)
    intro j h1 h2
    rw [← a2 j h1, ← b2 j h2]
    exact this j (by omega)
  have hnd : ((legalIdxs s.combinedRanges (b ||| d)).map fun x => nextIdx s.combinedRanges (b ||| d) x i).Nodup :=
    (List.nodup_map_iff_inj_on (legalIdxs_nodup _ _)).2 hinj
  have hsub : ((legalIdxs s.combinedRanges (b ||| d)).map fun x => nextIdx s.combinedRanges (b ||| d) x i) ⊆
      legalIdxs s.combinedRanges (b ||| d) := by
    intro y hy
    obtain ⟨x, hx, rfl⟩ := List.mem_map.1 hy
    obtain ⟨w1, p1, v1, q1, a1, a2, a3, a4, a5, a6⟩ := key x hx
    exact (hmem _).2 (a4.legalIdx hok a5 (by rw [nextIdx_length]; exact a6))
  exact (List.subperm_of_subset hnd hsub).perm_of_length_le (by rw [List.length_map])

/-- The indexes after moves of the combined ranges `moves`. -/
def idxAfter (crs : List CombinedRange) (u : Nat) (moves : List Nat) (x : List Nat) : List Nat := moves.foldl (nextIdx crs u) x

theorem McReady.idxAfter_perm (h : McReady ranges b d s) : ∀ (moves : List Nat), (∀ i ∈ moves, i < s.combinedRanges.length) →
    ((legalIdxs s.combinedRanges (b ||| d)).map (idxAfter s.combinedRanges (b ||| d) moves)).Perm
      (legalIdxs s.combinedRanges (b ||| d)) := by
  intro moves
  induction moves with
  | nil => intro _; exact (List.Perm.of_eq (List.map_id _))
  | cons i moves ih =>
    intro hm
    have h1 := h.nextIdx_perm (hm i (List.mem_cons_self ..))
    have h2 := ih (fun j hj => hm j (List.mem_cons_of_mem _ hj))
    refine List.Perm.trans ?_ h2
    have e : (legalIdxs s.combinedRanges (b ||| d)).map (idxAfter s.combinedRanges (b ||| d) (i :: moves)) =
        ((legalIdxs s.combinedRanges (b ||| d)).map fun x => nextIdx s.combinedRanges (b ||| d) x i).map
          (idxAfter s.combinedRanges (b ||| d) moves) := by
      rw [List.map_map]; rfl
    rw [e]
    exact h1.map _

/-- The deal with these indexes. -/
def dealAt (s : Sim) (x : List Nat) : List WHand :=
  (List.range s.nPlayers).map (writeAll s.combinedRanges (picksAt s.combinedRanges x) (fun _ => (52, 52, 100)))

theorem McReady.dealAt_perm (h : McReady ranges b d s) : ((legalIdxs s.combinedRanges (b ||| d)).map (dealAt s)).Perm
    (deals (specRanges ranges) (maskCards b ++ maskCards d)) := by
  have h1 := legalIdxs_deals s.combinedRanges (b ||| d) (fun _ => (52, 52, 100))
  rw [h.deals_eq] at h1
  have h2 := congrArg (Multiset.map fun y : Nat × (Nat → Hole) => (List.range s.nPlayers).map y.2) h1
  rw [Multiset.map_coe, Multiset.map_coe, List.map_map, List.map_map, Multiset.coe_eq_coe] at h2
  refine h2.trans (List.Perm.of_eq ((List.map_congr_left ?_).trans (List.map_id _)))
  intro dd hdd
  have hl := (deals_wf h.wf hdd).1
  show (List.range s.nPlayers).map (assign 0 dd _) = dd
  rw [h.fields.1, ← hl]
  exact assign_map dd _

/-- The deal the walk is at. -/
theorem McReady.atDealAt (h : McReady ranges b d s) {w : Walk} {picks : List JointCombo}
    (hw : WalkOk s.combinedRanges (b ||| d) w picks) (ho : Outside s.combinedRanges w) {x : List Nat} (hp : Points w x)
    (hl : x.length = s.combinedRanges.length) : AtDeal (maskCards b) (maskCards d) w (dealAt s x) ∧
      dealAt s x ∈ deals (specRanges ranges) (maskCards b ++ maskCards d) := by
  obtain ⟨dd, hdd, hat, e⟩ := h.atDeal_written hw ho
  have : dealAt s x = dd := by unfold dealAt; rw [picksAt_eq hw hp hl, e]
  rw [this]
  exact ⟨hat, hdd⟩

/-- `redeal` for the combined ranges `moves`, one after the other. -/
def redeals (crs : List CombinedRange) : List Nat → Walk → Option Walk
  | [], w => some w
  | i :: moves, w => do
    let cr ← crs[i]?
    let w ← redeal cr i w
    redeals crs moves w

/-- Every sequence of moves leads from a deal to a deal, and the indexes follow `idxAfter`. -/
theorem McReady.redeals (h : McReady ranges b d s) : ∀ (moves : List Nat), (∀ i ∈ moves, i < s.combinedRanges.length) →
    ∀ (w : Walk) (picks : List JointCombo) (x : List Nat), WalkOk s.combinedRanges (b ||| d) w picks → Outside s.combinedRanges w →
      Points w x → x.length = s.combinedRanges.length →
    ∃ w' picks', Pokers.redeals s.combinedRanges moves w = some w' ∧ WalkOk s.combinedRanges (b ||| d) w' picks' ∧
      Outside s.combinedRanges w' ∧ Points w' (idxAfter s.combinedRanges (b ||| d) moves x) ∧
      (idxAfter s.combinedRanges (b ||| d) moves x).length = s.combinedRanges.length := by
  intro moves
  induction moves with
  | nil => intro _ w picks x hw ho hp hl; exact ⟨w, picks, rfl, hw, ho, hp, hl⟩
  | cons i moves ih =>
    intro hm w picks x hw ho hp hl
    have hi := hm i (List.mem_cons_self ..)
    obtain ⟨w1, c, h1, _, h2, h3⟩ := redeal_spec h.crsOk.1 hw hi
    obtain ⟨w', picks', g1, g2⟩ := ih (fun j hj => hm j (List.mem_cons_of_mem _ hj)) w1 _ (nextIdx s.combinedRanges (b ||| d) x i) h2
      (h3 ho) (nextIdx_points h.crsOk.1 hw hp hl hi h1) (by rw [nextIdx_length]; exact hl)
    refine ⟨w', picks', ?_, g2⟩
    unfold Pokers.redeals
    rw [List.getElem?_eq_getElem hi]
    show (redeal s.combinedRanges[i] i w).bind _ = _
    rw [h1]
    exact g1

end

end Pokers
