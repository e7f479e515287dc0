import Verif.Props.Laws
import Verif.Props.EndToEnd
/-!
# C98: relations between the results for different range texts

What a comma and what the percentages of a text do to the results of the calculation.
-/
namespace Pokers
open Spec CombinedRange

variable {ranges pre post : List (List Combo)} {b d nT nT1 nT2 : Nat} {r r1 r2 : Results} {lower : List Char → List Char}
  {text text1 text2 : List Char} {ts ts1 ts2 : List Token} {hands hands1 hands2 : List Combo}

theorem specRanges_at (pre post : List (List Combo)) (X : List Combo) :
    specRanges (pre ++ X :: post) = specRanges pre ++ X.map toHole :: specRanges post := by
  simp [specRanges]

/-- The order of the hands of one range does not matter. -/
theorem overShows_order {M : Type} [AddCommMonoid M] (f : List WHand × List Nat → M) {X Y : List Combo} (h : X.Perm Y)
    (B D : List Nat) : overShows f (specRanges (pre ++ X :: post)) B D = overShows f (specRanges (pre ++ Y :: post)) B D := by
  have hs : ∀ L : List (List WHand), List.Forall₂ List.Perm L L := fun L => List.forall₂_same.2 fun _ _ => List.Perm.refl _
  rw [specRanges_at, specRanges_at]
  unfold overShows
  exact ((showdowns_perm (List.rel_append (hs _) (List.Forall₂.cons (h.map toHole) (hs _))) B D).map f).sum_eq

theorem wf_at {X : List Combo} : (∀ r ∈ pre ++ X :: post, WfRange r) ↔ (∀ r ∈ pre ++ post, WfRange r) ∧ WfRange X := by
  constructor
  · intro h
    refine ⟨fun r hr => h r ?_, h X (by simp)⟩
    rcases List.mem_append.1 hr with hr | hr <;> simp [hr]
  · rintro ⟨h1, h2⟩ r hr
    rcases List.mem_append.1 hr with hr | hr
    · exact h1 r (by simp [hr])
    · rcases List.mem_cons.1 hr with rfl | hr
      · exact h2
      · exact h1 r (by simp [hr])

theorem wf_perm {X Y : List Combo} (h : X.Perm Y) (hX : WfRange X) : WfRange Y := fun c hc => hX c (h.mem_iff.2 hc)

/-- A function of showdowns that is proportional to the weight. -/
def Proportional (f : List WHand × List Nat → ℚ) : Prop :=
  ∀ (m p : Nat) (D : List WHand) (B : List Nat), p < D.length → f (D.modify p (scaleHand m), B) = m • f (D, B)

theorem Counter.proportional (k : Counter) : Proportional k.points := fun m _ _ B hp => k.points_scale m hp B

theorem pot_proportional (p : Nat) : Proportional (potPoints p) := by
  intro m q D B hq
  rw [nsmul_eq_mul]
  simp only [potPoints, winners_scale, dealWeight_scale m hq, Nat.cast_mul, mul_add, mul_ite, mul_zero, mul_div_assoc]

theorem all_proportional : Proportional allPoints := by
  intro m q D B hq
  rw [nsmul_eq_mul]
  simp only [allPoints, dealWeight_scale m hq, Nat.cast_mul]

theorem overShows_proportional {f : List WHand × List Nat → ℚ} (hf : Proportional f) (m : Nat) (Q : List Combo) (B D : List Nat) :
    overShows f (specRanges (pre ++ scaleRange m Q :: post)) B D = (m : ℚ) * overShows f (specRanges (pre ++ Q :: post)) B D := by
  have hm : (scaleRange m Q).map toHole = (Q.map toHole).map (scaleHand m) := by
    unfold scaleRange
    rw [List.map_map, List.map_map]
    rfl
  rw [specRanges_at, specRanges_at, hm, ← nsmul_eq_mul]
  exact overShows_scale _ _ _ _ _ fun D B hD => hf m _ D B (by omega)

/-- C98: only the proportions of the weights of a range matter: if `m` times the weights of one range and `m2` times the weights of
another range are the same, then so are the counters. -/
theorem C98_proportions {Q Q2 : List Combo} {m m2 : Nat} (hQ : (scaleRange m Q).Perm (scaleRange m2 Q2))
    (hwf : ∀ r ∈ pre ++ Q :: post, WfRange r) (hwf2 : ∀ r ∈ pre ++ Q2 :: post, WfRange r) (hb : CardMask b) (hd : CardMask d)
    (hT : 0 < nT) (hT2 : 0 < nT2) (h : Delivers (pre ++ Q :: post) b d nT r) (h2 : Delivers (pre ++ Q2 :: post) b d nT2 r2)
    {k : Counter} (hk : k.Valid (pre.length + 1 + post.length)) : (m : ℚ) * k.value r = m2 * k.value r2 := by
  have hl : ∀ X : List Combo, (pre ++ X :: post).length = pre.length + 1 + post.length := fun X => by simp; omega
  rw [h.value hwf hb hd hT (by rw [hl]; exact hk), h2.value hwf2 hb hd hT2 (by rw [hl]; exact hk),
    ← overShows_proportional k.proportional, ← overShows_proportional k.proportional, overShows_order _ hQ]

/-- C98: and the equities are the same. -/
theorem C98_same_equities {Q Q2 : List Combo} {m m2 : Nat} (hQ : (scaleRange m Q).Perm (scaleRange m2 Q2)) (hm : 0 < m) (hm2 : 0 < m2)
    (hwf : ∀ r ∈ pre ++ Q :: post, WfRange r) (hwf2 : ∀ r ∈ pre ++ Q2 :: post, WfRange r) (hb : CardMask b) (hd : CardMask d)
    (hT : 0 < nT) (hT2 : 0 < nT2) (h8 : pre.length + 1 + post.length ≤ 8) (hw : WholeShares (pre ++ Q :: post) b d)
    (hw2 : WholeShares (pre ++ Q2 :: post) b d) (h : Delivers (pre ++ Q :: post) b d nT r) (h2 : Delivers (pre ++ Q2 :: post) b d nT2 r2)
    (h0 : totalCount (pre.length + 1 + post.length) r ≠ 0) {p : Nat} (hp : p < pre.length + 1 + post.length) :
    r.equities[p]? = r2.equities[p]? := by
  have hl : ∀ X : List Combo, (pre ++ X :: post).length = pre.length + 1 + post.length := fun X => by simp; omega
  have hmq : (m : ℚ) ≠ 0 := by exact_mod_cast hm.ne'
  have hmq2 : (m2 : ℚ) ≠ 0 := by exact_mod_cast hm2.ne'
  have e1 : (m : ℚ) * overShows (potPoints p) (specRanges (pre ++ Q :: post)) (maskCards b) (maskCards d) =
      m2 * overShows (potPoints p) (specRanges (pre ++ Q2 :: post)) (maskCards b) (maskCards d) := by
    rw [← overShows_proportional (pot_proportional p), ← overShows_proportional (pot_proportional p), overShows_order _ hQ]
  have e2 : (m : ℚ) * overShows allPoints (specRanges (pre ++ Q :: post)) (maskCards b) (maskCards d) =
      m2 * overShows allPoints (specRanges (pre ++ Q2 :: post)) (maskCards b) (maskCards d) := by
    rw [← overShows_proportional all_proportional, ← overShows_proportional all_proportional, overShows_order _ hQ]
  have t1 := h.total hwf hb hd hT (by rw [hl]; omega)
  have t2 := h2.total hwf2 hb hd hT2 (by rw [hl]; omega)
  rw [hl] at t1 t2
  rw [← t1, ← t2] at e2
  have h02 : totalCount (pre.length + 1 + post.length) r2 ≠ 0 := by
    intro hz
    rw [hz, mul_zero] at e2
    exact mul_ne_zero hmq h0 e2
  have q1 := h.equity hwf hb hd hT (by rw [hl]; exact h8) hw (by rw [hl]; exact h0) (p := p) (by rw [hl]; exact hp)
  have q2 := h2.equity hwf2 hb hd hT2 (by rw [hl]; exact h8) hw2 (by rw [hl]; exact h02) (p := p) (by rw [hl]; exact hp)
  rw [hl] at q1 q2
  rw [q1, q2, ← mul_div_mul_left _ _ hmq, e1, e2, mul_div_mul_left _ _ hmq2]

/-- The hands of the second range that are not in the first one. -/
def newHands (X Y : List Combo) : List Combo := Y.filter fun c => decide ((c.c1, c.c2) ∉ X.map fun c => (c.c1, c.c2))

theorem hasWeight_denoted {ts : List Token} {a b w : Nat} (h : HasWeight ts a b w) : ∃ t ∈ ts, t.shape.denotes a b := by
  obtain ⟨i, hi, h1, _⟩ := h
  exact ⟨ts[i], List.getElem_mem hi, h1⟩

theorem denoted_hasWeight {ts : List Token} {a b : Nat} (h : ∃ t ∈ ts, t.shape.denotes a b) : ∃ w, HasWeight ts a b w := by
  induction ts with
  | nil => obtain ⟨_, h, _⟩ := h; cases h
  | cons t ts ih =>
    by_cases ht : t.shape.denotes a b
    · exact ⟨t.percent, 0, by simp, ht, rfl, fun j hj => absurd hj (by omega)⟩
    · obtain ⟨t', h1, h2⟩ := h
      rcases List.mem_cons.1 h1 with rfl | h1
      · exact absurd h2 ht
      · obtain ⟨w, i, hi, e1, e2, e3⟩ := ih ⟨t', h1, h2⟩
        refine ⟨w, i + 1, by simpa using hi, e1, e2, fun j hj => ?_⟩
        cases j with
        | zero => exact ht
        | succ j => exact e3 j (by omega)

theorem hasWeight_append {a b w : Nat} : HasWeight (ts1 ++ ts2) a b w ↔
    HasWeight ts1 a b w ∨ (∀ t ∈ ts1, ¬ t.shape.denotes a b) ∧ HasWeight ts2 a b w := by
  constructor
  · rintro ⟨i, hi, h1, h2, h3⟩
    by_cases hlt : i < ts1.length
    · left
      refine ⟨i, hlt, ?_, ?_, fun j hj => ?_⟩
      · rwa [List.getElem_append_left hlt] at h1
      · rwa [List.getElem_append_left hlt] at h2
      · have := h3 j hj
        rwa [List.getElem_append_left (hj.trans hlt)] at this
    · right
      rw [List.length_append] at hi
      refine ⟨fun t ht => ?_, i - ts1.length, by omega, ?_, ?_, fun j hj => ?_⟩
      · obtain ⟨j, hj, rfl⟩ := List.getElem_of_mem ht
        have := h3 j (by omega)
        rwa [List.getElem_append_left hj] at this
      · rwa [List.getElem_append_right (by omega)] at h1
      · rwa [List.getElem_append_right (by omega)] at h2
      · have := h3 (ts1.length + j) (by omega)
        rw [List.getElem_append_right (by omega)] at this
        simpa using this
  · rintro (⟨i, hi, h1, h2, h3⟩ | ⟨hn, i, hi, h1, h2, h3⟩)
    · refine ⟨i, by simp; omega, ?_, ?_, fun j hj => ?_⟩
      · rwa [List.getElem_append_left hi]
      · rwa [List.getElem_append_left hi]
      · rw [List.getElem_append_left (hj.trans hi)]
        exact h3 j hj
    · refine ⟨ts1.length + i, by simp; omega, ?_, ?_, fun j hj => ?_⟩
      · rw [List.getElem_append_right (by omega)]
        simpa using h1
      · rw [List.getElem_append_right (by omega)]
        simpa using h2
      · by_cases hlt : j < ts1.length
        · rw [List.getElem_append_left hlt]
          exact hn _ (List.getElem_mem hlt)
        · rw [List.getElem_append_right (by omega)]
          exact h3 (j - ts1.length) (by omega)

/-- A text and its tokens. -/
structure Means (lower : List Char → List Char) (text : List Char) (ts : List Token) (hands : List Combo) : Prop where
  tokens : ts ≠ []
  valid : ∀ t ∈ ts, t.Valid
  written : lower text = rangeText ts
  notRandom : text ≠ "random".toList
  parsed : fromString lower text = .ok hands

theorem Means.mem (h : Means lower text ts hands) (a b w : Nat) : (⟨a, b, w⟩ : Combo) ∈ hands ↔ b < a ∧ a < 52 ∧ HasWeight ts a b w := by
  obtain ⟨hands', h1, h2⟩ := C21_union (lower := lower) h.tokens h.valid [] (fun _ _ h => by cases h) h.notRandom (by rw [h.written, List.append_nil])
  rw [h.parsed] at h1
  injection h1 with h1
  rw [h1]
  exact h2 a b w

theorem Means.nodup (h : Means lower text ts hands) : (hands.map fun c => (c.c1, c.c2)).Nodup := C19_nodup h.parsed

theorem Means.wf (h : Means lower text ts hands) : WfRange hands := by
  intro c hc
  have := C18_wellformed h.parsed hc
  exact ⟨by omega, by omega, by omega⟩

/-- The hands of a text with a comma. -/
theorem Means.comma (h : Means lower text (ts1 ++ ts2) hands) (h1 : Means lower text1 ts1 hands1) (h2 : Means lower text2 ts2 hands2) :
    hands.Perm (hands1 ++ newHands hands1 hands2) := by
  have n1 := h1.nodup.of_map
  have n2 := h2.nodup.of_map
  have hk : ∀ a b, (a, b) ∈ (hands1.map fun c => (c.c1, c.c2)) → ∃ t ∈ ts1, t.shape.denotes a b := by
    intro a b hm
    obtain ⟨⟨a', b', w⟩, hc, he⟩ := List.mem_map.1 hm
    injection he with e1 e2
    subst e1 e2
    exact hasWeight_denoted ((h1.mem _ _ _).1 hc).2.2
  rw [List.perm_ext_iff_of_nodup h.nodup.of_map (show (hands1 ++ newHands hands1 hands2).Nodup from List.nodup_append.2 ⟨n1, n2.filter _, ?_⟩)]
  · rintro ⟨a, b, w⟩
    unfold newHands
    rw [List.mem_append, List.mem_filter, h.mem, h1.mem, h2.mem, hasWeight_append, decide_eq_true_iff]
    constructor
    · rintro ⟨hab, ha, hw | ⟨hn, hw⟩⟩
      · exact Or.inl ⟨hab, ha, hw⟩
      · refine Or.inr ⟨⟨hab, ha, hw⟩, fun hm => ?_⟩
        obtain ⟨t, ht, hd⟩ := hk a b hm
        exact hn t ht hd
    · rintro (⟨hab, ha, hw⟩ | ⟨⟨hab, ha, hw⟩, hn⟩)
      · exact ⟨hab, ha, Or.inl hw⟩
      · refine ⟨hab, ha, Or.inr ⟨fun t ht hd => hn ?_, hw⟩⟩
        obtain ⟨w', hw'⟩ := denoted_hasWeight ⟨t, ht, hd⟩
        exact List.mem_map.2 ⟨⟨a, b, w'⟩, (h1.mem _ _ _).2 ⟨hab, ha, hw'⟩, rfl⟩
  · intro x hx y hy hxy
    subst hxy
    unfold newHands at hy
    rw [List.mem_filter, decide_eq_true_iff] at hy
    exact hy.2 (List.mem_map_of_mem hx)

/-- C98: the results for a text with a comma are those for the part before the comma and those for the hands that the part after
the comma adds. -/
theorem C98_comma (h : Means lower text (ts1 ++ ts2) hands) (h1 : Means lower text1 ts1 hands1) (h2 : Means lower text2 ts2 hands2)
    (hwf : ∀ r ∈ pre ++ post, WfRange r) (hb : CardMask b) (hd : CardMask d) (hT : 0 < nT) (hT1 : 0 < nT1) (hT2 : 0 < nT2)
    (hr : Delivers (pre ++ hands :: post) b d nT r) (hr1 : Delivers (pre ++ hands1 :: post) b d nT1 r1)
    (hr2 : Delivers (pre ++ newHands hands1 hands2 :: post) b d nT2 r2) {k : Counter} (hk : k.Valid (pre.length + 1 + post.length)) :
    k.value r = k.value r1 + k.value r2 := by
  have hl : ∀ X : List Combo, (pre ++ X :: post).length = pre.length + 1 + post.length := fun X => by simp; omega
  have hw2 : WfRange (newHands hands1 hands2) := fun c hc => h2.wf c (List.mem_filter.1 hc).1
  rw [hr.value (wf_at.2 ⟨hwf, h.wf⟩) hb hd hT (by rw [hl]; exact hk), hr1.value (wf_at.2 ⟨hwf, h1.wf⟩) hb hd hT1 (by rw [hl]; exact hk),
    hr2.value (wf_at.2 ⟨hwf, hw2⟩) hb hd hT2 (by rw [hl]; exact hk), overShows_order _ (h.comma h1 h2), specRanges_at, specRanges_at,
    specRanges_at, List.map_append]
  exact overShows_split _ _ _ _ _ _ _

/-- C98: if the parts have no hand in common, the results for the text with the comma are the sum of the results for the parts. -/
theorem C98_disjoint (h : Means lower text (ts1 ++ ts2) hands) (h1 : Means lower text1 ts1 hands1) (h2 : Means lower text2 ts2 hands2)
    (hdis : ∀ t ∈ ts1, ∀ t' ∈ ts2, ∀ a b, b < a → a < 52 → ¬ (t.shape.denotes a b ∧ t'.shape.denotes a b))
    (hwf : ∀ r ∈ pre ++ post, WfRange r) (hb : CardMask b) (hd : CardMask d) (hT : 0 < nT) (hT1 : 0 < nT1) (hT2 : 0 < nT2)
    (hr : Delivers (pre ++ hands :: post) b d nT r) (hr1 : Delivers (pre ++ hands1 :: post) b d nT1 r1)
    (hr2 : Delivers (pre ++ hands2 :: post) b d nT2 r2) {k : Counter} (hk : k.Valid (pre.length + 1 + post.length)) :
    k.value r = k.value r1 + k.value r2 := by
  have e : newHands hands1 hands2 = hands2 := by
    unfold newHands
    rw [List.filter_eq_self]
    rintro ⟨a, b, w⟩ hc
    rw [decide_eq_true_iff]
    intro hm
    obtain ⟨⟨a', b', w'⟩, hc', he⟩ := List.mem_map.1 hm
    injection he with e1 e2
    subst e1 e2
    obtain ⟨hab, ha, hw⟩ := (h2.mem _ _ _).1 hc
    obtain ⟨t, ht, hd1⟩ := hasWeight_denoted ((h1.mem _ _ _).1 hc').2.2
    obtain ⟨t', ht', hd2⟩ := hasWeight_denoted hw
    exact hdis t ht t' ht' _ _ hab ha ⟨hd1, hd2⟩
  exact C98_comma h h1 h2 hwf hb hd hT hT1 hT2 hr hr1 (by rw [e]; exact hr2) hk

/-- The weights in two texts have the ratio `m2 : m`. -/
theorem Means.ratio (h : Means lower text ts hands) (h2 : Means lower text2 ts2 hands2) {m m2 : Nat}
    (hts : List.Forall₂ (fun t t' : Token => t.shape = t'.shape ∧ m * t.percent = m2 * t'.percent) ts ts2) :
    (scaleRange m hands).Perm (scaleRange m2 hands2) := by
  have key : ∀ {a b w : Nat}, HasWeight ts a b w → ∃ w2, HasWeight ts2 a b w2 ∧ m * w = m2 * w2 := by
    rintro a b w ⟨i, hi, e1, e2, e3⟩
    have hi2 : i < ts2.length := hts.length_eq ▸ hi
    have hp := fun j hj => (List.forall₂_iff_get.1 hts).2 j hj (hts.length_eq ▸ hj)
    refine ⟨ts2[i].percent, ⟨i, hi2, ?_, rfl, fun j hj => ?_⟩, ?_⟩
    · have := (hp i hi).1
      simp only [List.get_eq_getElem] at this
      rwa [← this]
    · have := (hp j (hj.trans hi)).1
      simp only [List.get_eq_getElem] at this
      rw [← this]
      exact e3 j hj
    · have := (hp i hi).2
      simp only [List.get_eq_getElem] at this
      rw [← e2, this]
  have key2 : ∀ {a b w2 : Nat}, HasWeight ts2 a b w2 → ∃ w, HasWeight ts a b w ∧ m * w = m2 * w2 := by
    rintro a b w ⟨i, hi2, e1, e2, e3⟩
    have hi : i < ts.length := hts.length_eq.symm ▸ hi2
    have hp := fun j hj => (List.forall₂_iff_get.1 hts).2 j hj (hts.length_eq ▸ hj)
    refine ⟨ts[i].percent, ⟨i, hi, ?_, rfl, fun j hj => ?_⟩, ?_⟩
    · have := (hp i hi).1
      simp only [List.get_eq_getElem] at this
      rwa [this]
    · have := (hp j (hj.trans hi)).1
      simp only [List.get_eq_getElem] at this
      rw [this]
      exact e3 j hj
    · have := (hp i hi).2
      simp only [List.get_eq_getElem] at this
      rw [← e2, this]
  have nd : ∀ {X : List Combo} (k : Nat), (X.map fun c => (c.c1, c.c2)).Nodup → (scaleRange k X).Nodup := by
    intro X k hX
    apply List.Nodup.of_map (fun c => (c.c1, c.c2))
    unfold scaleRange
    rw [List.map_map]
    exact hX
  rw [List.perm_ext_iff_of_nodup (nd m h.nodup) (nd m2 h2.nodup)]
  rintro ⟨a, b, w⟩
  unfold scaleRange
  rw [List.mem_map, List.mem_map]
  constructor
  · rintro ⟨⟨a', b', w'⟩, hc, he⟩
    injection he with e1 e2 e3
    subst e1 e2 e3
    obtain ⟨hab, ha, hw⟩ := (h.mem _ _ _).1 hc
    obtain ⟨w2, hw2, e⟩ := key hw
    exact ⟨⟨a', b', w2⟩, (h2.mem _ _ _).2 ⟨hab, ha, hw2⟩, by simp [e]⟩
  · rintro ⟨⟨a', b', w'⟩, hc, he⟩
    injection he with e1 e2 e3
    subst e1 e2 e3
    obtain ⟨hab, ha, hw⟩ := (h2.mem _ _ _).1 hc
    obtain ⟨w2, hw2, e⟩ := key2 hw
    exact ⟨⟨a', b', w2⟩, (h.mem _ _ _).2 ⟨hab, ha, hw2⟩, by simp [e]⟩

/-- C98: multiplying all percentages of a text by the same factor leaves the equities as they are. -/
theorem C98_percentages (h : Means lower text ts hands) (h2 : Means lower text2 ts2 hands2) {m m2 : Nat} (hm : 0 < m) (hm2 : 0 < m2)
    (hts : List.Forall₂ (fun t t' : Token => t.shape = t'.shape ∧ m * t.percent = m2 * t'.percent) ts ts2)
    (hwf : ∀ r ∈ pre ++ post, WfRange r) (hb : CardMask b) (hd : CardMask d) (hT : 0 < nT) (hT2 : 0 < nT2)
    (h8 : pre.length + 1 + post.length ≤ 8) (hw : WholeShares (pre ++ hands :: post) b d)
    (hw2 : WholeShares (pre ++ hands2 :: post) b d) (hr : Delivers (pre ++ hands :: post) b d nT r)
    (hr2 : Delivers (pre ++ hands2 :: post) b d nT2 r2) (h0 : totalCount (pre.length + 1 + post.length) r ≠ 0) {p : Nat}
    (hp : p < pre.length + 1 + post.length) : r.equities[p]? = r2.equities[p]? :=
  C98_same_equities (h.ratio h2 hts) hm hm2 (wf_at.2 ⟨hwf, h.wf⟩) (wf_at.2 ⟨hwf, h2.wf⟩) hb hd hT hT2 h8 hw hw2 hr hr2 h0 hp

/-! ## Examples -/

def tokenAces : Token := ⟨.cards 48 49, none⟩
def tokenKings : Token := ⟨.cards 44 45, none⟩
def tokenHalf : Token := ⟨.cards 48 49, some [5, 0]⟩

theorem means_aces : Means id "asah".toList [tokenAces] [⟨49, 48, 100⟩] :=
  ⟨by simp, by simp [tokenAces, Token.Valid, Shape.Valid], by decide, by decide, by decide +kernel⟩

theorem means_kings : Means id "kskh".toList [tokenKings] [⟨45, 44, 100⟩] :=
  ⟨by simp, by simp [tokenKings, Token.Valid, Shape.Valid], by decide, by decide, by decide +kernel⟩

theorem means_half : Means id "asah@50".toList [tokenHalf] [⟨49, 48, 50⟩] :=
  ⟨by simp, by simp [tokenHalf, Token.Valid, Shape.Valid, decimal], by decide, by decide, by decide +kernel⟩

theorem means_both : Means id "asah,kskh".toList ([tokenAces] ++ [tokenKings]) [⟨45, 44, 100⟩, ⟨49, 48, 100⟩] :=
  ⟨by simp, by simp [tokenAces, tokenKings, Token.Valid, Shape.Valid], by decide, by decide, by
    refine fromString_of_parse (l := [⟨49, 48, 100⟩, ⟨45, 44, 100⟩]) ?_ ?_ ?_ ?_ ?_ ?_ <;> decide +kernel⟩

/-- Queens. -/
def queens : List Combo := [⟨43, 42, 100⟩]

/-- Aces or kings against queens. -/
example (nT : Nat) (hT : 0 < nT) : ∃ r r1 r2, Delivers [[⟨45, 44, 100⟩, ⟨49, 48, 100⟩], queens] flopMask 0 nT r ∧
    Delivers [[⟨49, 48, 100⟩], queens] flopMask 0 nT r1 ∧ Delivers [[⟨45, 44, 100⟩], queens] flopMask 0 nT r2 ∧
    r.winsByMask 1 = r1.winsByMask 1 + r2.winsByMask 1 := by
  have hb : CardMask flopMask := by unfold CardMask; decide
  obtain ⟨r, h⟩ := delivers_exists (ranges := [[⟨45, 44, 100⟩, ⟨49, 48, 100⟩], queens]) (by unfold WfRange queens; decide) hb zero_deck
    (by decide +kernel) (by decide +kernel) nT
  obtain ⟨r1, h1⟩ := delivers_exists (ranges := [[⟨49, 48, 100⟩], queens]) (by unfold WfRange queens; decide) hb zero_deck
    (by decide +kernel) (by decide +kernel) nT
  obtain ⟨r2, h2⟩ := delivers_exists (ranges := [[⟨45, 44, 100⟩], queens]) (by unfold WfRange queens; decide) hb zero_deck
    (by decide +kernel) (by decide +kernel) nT
  refine ⟨r, r1, r2, h, h1, h2, ?_⟩
  have := C98_disjoint (pre := []) (post := [queens]) means_both means_aces means_kings ?_ (by unfold WfRange queens; decide) hb zero_deck
    hT hT hT h h1 h2 (k := .mask 1) (by unfold Counter.Valid; decide)
  · simp only [Counter.value] at this
    exact_mod_cast this
  · intro t ht t' ht' a b _ _
    rw [List.mem_singleton] at ht ht'
    subst ht ht'
    simp only [tokenAces, tokenKings, Shape.denotes]
    omega

/-- Aces half of the time have the same equity. -/
example (nT : Nat) (hT : 0 < nT) : ∃ r r2, Delivers [[⟨49, 48, 100⟩], queens] flopMask 0 nT r ∧
    Delivers [[⟨49, 48, 50⟩], queens] flopMask 0 nT r2 ∧
    (totalCount 2 r ≠ 0 → r.equities[0]? = r2.equities[0]?) ∧ (r.winsByMask 1 : ℚ) = 2 * r2.winsByMask 1 := by
  have hb : CardMask flopMask := by unfold CardMask; decide
  have w1 : ∀ r ∈ [[⟨49, 48, 100⟩], queens], WfRange r := by unfold WfRange queens; decide
  have w2 : ∀ r ∈ [[⟨49, 48, 50⟩], queens], WfRange r := by unfold WfRange queens; decide
  obtain ⟨r, h⟩ := delivers_exists w1 hb zero_deck (by decide +kernel) (by decide +kernel) nT
  obtain ⟨r2, h2⟩ := delivers_exists w2 hb zero_deck (by decide +kernel) (by decide +kernel) nT
  have hts : List.Forall₂ (fun t t' : Token => t.shape = t'.shape ∧ 1 * t.percent = 2 * t'.percent) [tokenAces] [tokenHalf] :=
    List.Forall₂.cons ⟨rfl, by decide⟩ List.Forall₂.nil
  refine ⟨r, r2, h, h2, fun h0 => ?_, ?_⟩
  · exact C98_percentages (pre := []) (post := [queens]) means_aces means_half (m := 1) (m2 := 2) (by decide) (by decide) hts
      (by unfold WfRange queens; decide) hb zero_deck hT hT (by decide) (C61_two_players w1 rfl (p := 1) (by decide) (by decide))
      (C61_two_players w2 rfl (p := 1) (by decide) (by decide)) h h2 h0 (by decide)
  · have := C98_proportions (pre := []) (post := [queens]) (means_aces.ratio means_half hts) w1 w2 hb zero_deck hT hT h h2 (k := .mask 1)
      (by unfold Counter.Valid; decide)
    simpa only [Counter.value, Nat.cast_one, one_mul, Nat.cast_ofNat] using this

end Pokers
