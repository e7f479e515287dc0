import Verif.Props.Laws
import Verif.Props.Rates
import Verif.Props.Certain
/-!
# C99: mixing hands

The equity with a range of two parts lies between the equities with the parts; more weight on a part moves the equity towards the equity
with this part; no range does better than its best hand; and the equity reported for a hand is the one with this hand alone.
-/
namespace Pokers
open Spec CombinedRange

variable {b d nT : Nat} {r : Results} {pre post : List (List Combo)}

/-- The sum over all showdowns, with the range `X` at one place between the ranges `pre` and `post`. -/
def withRange (pre post : List (List Combo)) (b d : Nat) (f : List WHand × List Nat → ℚ) (X : List Combo) : ℚ :=
  overShows f (specRanges (pre ++ X :: post)) (maskCards b) (maskCards d)

theorem specRanges_put (pre post : List (List Combo)) (X : List Combo) :
    specRanges (pre ++ X :: post) = specRanges pre ++ X.map toHole :: specRanges post := by
  simp [specRanges]

theorem withRange_append (f : List WHand × List Nat → ℚ) (X Y : List Combo) :
    withRange pre post b d f (X ++ Y) = withRange pre post b d f X + withRange pre post b d f Y := by
  unfold withRange
  rw [specRanges_put, specRanges_put, specRanges_put, List.map_append, overShows_split]

theorem withRange_nil (f : List WHand × List Nat → ℚ) : withRange pre post b d f [] = 0 := by
  have := withRange_append (pre := pre) (post := post) (b := b) (d := d) f [] []
  rw [List.append_nil] at this
  linarith

theorem withRange_sum (f : List WHand × List Nat → ℚ) (X : List Combo) :
    withRange pre post b d f X = (X.map fun c => withRange pre post b d f [c]).sum := by
  induction X with
  | nil => exact withRange_nil f
  | cons c X ih =>
    have := withRange_append (pre := pre) (post := post) (b := b) (d := d) f [c] X
    rw [List.singleton_append] at this
    rw [this, ih, List.map_cons, List.sum_cons]

theorem withRange_nonneg {f : List WHand × List Nat → ℚ} (hf : ∀ x, 0 ≤ f x) (X : List Combo) : 0 ≤ withRange pre post b d f X := by
  unfold withRange overShows
  apply List.sum_nonneg
  intro y hy
  obtain ⟨x, _, rfl⟩ := List.mem_map.1 hy
  exact hf x

theorem withRange_mono {f g : List WHand × List Nat → ℚ} (hf : ∀ x, f x ≤ g x) (X : List Combo) :
    withRange pre post b d f X ≤ withRange pre post b d g X := by
  unfold withRange overShows
  exact List.sum_le_sum fun x _ => hf x

theorem withRange_add (f g : List WHand × List Nat → ℚ) (X : List Combo) :
    withRange pre post b d (fun x => f x + g x) X = withRange pre post b d f X + withRange pre post b d g X := by
  unfold withRange overShows
  exact List.sum_map_add

theorem allPoints_nonneg (x : List WHand × List Nat) : 0 ≤ allPoints x := by unfold allPoints; positivity

/-- Scaling the weights of the range scales the sum. -/
theorem withRange_scale {f : List WHand × List Nat → ℚ} {m : Nat}
    (hf : ∀ p D B, p < D.length → f (D.modify p (scaleHand m), B) = m • f (D, B)) (X : List Combo) :
    withRange pre post b d f (scaleRange m X) = m * withRange pre post b d f X := by
  have hsc : (scaleRange m X).map toHole = (X.map toHole).map (scaleHand m) := by
    unfold scaleRange
    rw [List.map_map, List.map_map]
    rfl
  unfold withRange
  rw [specRanges_put, specRanges_put, hsc, overShows_scale _ _ _ _ _ (fun D B hD => hf _ D B (by omega)), nsmul_eq_mul]

theorem pot_scale (p m : Nat) (X : List Combo) :
    withRange pre post b d (potPoints p) (scaleRange m X) = m * withRange pre post b d (potPoints p) X :=
  withRange_scale (fun q D B hD => by
    rw [nsmul_eq_mul]
    simp only [potPoints, winners_scale, dealWeight_scale m hD, Nat.cast_mul, mul_add, mul_ite, mul_zero, mul_div_assoc]) X

theorem all_scale (m : Nat) (X : List Combo) :
    withRange pre post b d allPoints (scaleRange m X) = m * withRange pre post b d allPoints X :=
  withRange_scale (fun q D B hD => by
    rw [nsmul_eq_mul]
    simp only [allPoints, dealWeight_scale m hD, Nat.cast_mul]) X

/-- One for a pot that cannot be divided into whole shares. -/
def oddPot (m : Nat) (x : List WHand × List Nat) : ℚ := if (winners x.2 x.1).length ∣ m * Spec.dealWeight x.1 then 0 else 1

theorem oddPot_nonneg (m : Nat) (x : List WHand × List Nat) : 0 ≤ oddPot m x := by unfold oddPot; split <;> norm_num

theorem wholeShares_iff (X : List Combo) : WholeShares (pre ++ X :: post) b d ↔ withRange pre post b d (oddPot 1) X = 0 := by
  unfold withRange overShows WholeShares
  constructor
  · intro h
    apply List.sum_eq_zero
    intro y hy
    obtain ⟨x, hx, rfl⟩ := List.mem_map.1 hy
    exact if_pos (by rw [one_mul]; exact h x hx)
  · intro h x hx
    have h0 := List.all_zero_of_le_zero_le_of_sum_eq_zero (fun y hy => by
      obtain ⟨x, _, rfl⟩ := List.mem_map.1 hy
      exact oddPot_nonneg 1 x) h (List.mem_map_of_mem hx)
    by_contra hn
    simp [oddPot, hn] at h0

/-- The condition on the weights for the parts of a range and for the whole. -/
theorem wholeShares_append (X Y : List Combo) : WholeShares (pre ++ (X ++ Y) :: post) b d ↔
    WholeShares (pre ++ X :: post) b d ∧ WholeShares (pre ++ Y :: post) b d := by
  rw [wholeShares_iff, wholeShares_iff, wholeShares_iff, withRange_append]
  exact add_eq_zero_iff_of_nonneg (withRange_nonneg (oddPot_nonneg 1) X) (withRange_nonneg (oddPot_nonneg 1) Y)

theorem wholeShares_scale {X : List Combo} (m : Nat) (h : WholeShares (pre ++ X :: post) b d) :
    WholeShares (pre ++ scaleRange m X :: post) b d := by
  rw [wholeShares_iff]
  have hsc : (scaleRange m X).map toHole = (X.map toHole).map (scaleHand m) := by
    unfold scaleRange
    rw [List.map_map, List.map_map]
    rfl
  unfold withRange
  rw [specRanges_put, hsc, overShows_weights (g := oddPot m) _ _ _ _ _ (fun D B hD => by
    simp only [oddPot, winners_scale, dealWeight_scale m (show (specRanges pre).length < D.length by omega), one_mul]), ← specRanges_put]
  unfold overShows
  apply List.sum_eq_zero
  intro y hy
  obtain ⟨x, hx, rfl⟩ := List.mem_map.1 hy
  exact if_pos ((h x hx).mul_left m)

theorem wf_put {X Y : List Combo} (hwf : ∀ r ∈ pre ++ X :: post, WfRange r) (hY : WfRange Y) : ∀ r ∈ pre ++ Y :: post, WfRange r := by
  intro r hr
  rcases List.mem_append.1 hr with hr | hr
  · exact hwf r (by simp [hr])
  · rcases List.mem_cons.1 hr with rfl | hr
    · exact hY
    · exact hwf r (by simp [hr])

theorem wf_here {X : List Combo} (hwf : ∀ r ∈ pre ++ X :: post, WfRange r) : WfRange X := hwf X (by simp)

theorem wf_scaled {X : List Combo} (m : Nat) (h : WfRange X) : WfRange (scaleRange m X) := by
  intro c hc
  obtain ⟨x, hx, rfl⟩ := List.mem_map.1 hc
  exact h x hx

/-- The equity that is reported, as a quotient of sums over the showdowns. -/
theorem Delivers.at {X : List Combo} (hwf : ∀ r ∈ pre ++ X :: post, WfRange r) (hb : CardMask b) (hd : CardMask d) (hT : 0 < nT)
    (h8 : pre.length + 1 + post.length ≤ 8) (hw : WholeShares (pre ++ X :: post) b d) (h : Delivers (pre ++ X :: post) b d nT r) :
    totalCount (pre.length + 1 + post.length) r = withRange pre post b d allPoints X ∧
    (withRange pre post b d allPoints X ≠ 0 → ∀ p < pre.length + 1 + post.length,
      r.equities[p]? = some (some (withRange pre post b d (potPoints p) X / withRange pre post b d allPoints X))) := by
  have hl : (pre ++ X :: post).length = pre.length + 1 + post.length := by simp; omega
  have ht := h.total hwf hb hd hT (by omega)
  rw [hl] at ht
  refine ⟨ht, fun h0 p hp => ?_⟩
  have he := h.equity hwf hb hd hT (by omega) hw (by rw [hl, ht]; exact h0) (p := p) (by omega)
  rw [hl, ht] at he
  exact he

/-- C99: with a range of two parts, the weights of all showdowns add, and the equity of every player is the mean of the equities with
the parts, weighted with the weights of their showdowns. -/
theorem C99_mix {A B : List Combo} {rA rB : Results} {nA nB : Nat}
    (hwf : ∀ r ∈ pre ++ (A ++ B) :: post, WfRange r) (hb : CardMask b) (hd : CardMask d) (hT : 0 < nT) (hA : 0 < nA) (hB : 0 < nB)
    (h8 : pre.length + 1 + post.length ≤ 8) (hw : WholeShares (pre ++ (A ++ B) :: post) b d)
    (h : Delivers (pre ++ (A ++ B) :: post) b d nT r) (h1 : Delivers (pre ++ A :: post) b d nA rA)
    (h2 : Delivers (pre ++ B :: post) b d nB rB) {p : Nat} (hp : p < pre.length + 1 + post.length) {eA eB : ℚ}
    (h01 : totalCount (pre.length + 1 + post.length) rA ≠ 0) (h02 : totalCount (pre.length + 1 + post.length) rB ≠ 0)
    (heA : rA.equities[p]? = some (some eA)) (heB : rB.equities[p]? = some (some eB)) :
    let t := totalCount (pre.length + 1 + post.length)
    t r = t rA + t rB ∧ r.equities[p]? = some (some ((t rA * eA + t rB * eB) / (t rA + t rB))) := by
  intro t
  have hAB := wf_here hwf
  have hwA : WfRange A := fun c hc => hAB c (by simp [hc])
  have hwB : WfRange B := fun c hc => hAB c (by simp [hc])
  obtain ⟨hsA, hsB⟩ := (wholeShares_append A B).1 hw
  obtain ⟨t0, e0⟩ := h.at hwf hb hd hT h8 hw
  obtain ⟨t1, e1⟩ := h1.at (wf_put hwf hwA) hb hd hA h8 hsA
  obtain ⟨t2, e2⟩ := h2.at (wf_put hwf hwB) hb hd hB h8 hsB
  rw [t1] at h01
  rw [t2] at h02
  have q1 := e1 h01 p hp
  have q2 := e2 h02 p hp
  rw [heA, Option.some_inj, Option.some_inj] at q1
  rw [heB, Option.some_inj, Option.some_inj] at q2
  have n1 := withRange_nonneg (pre := pre) (post := post) (b := b) (d := d) allPoints_nonneg A
  have n2 := withRange_nonneg (pre := pre) (post := post) (b := b) (d := d) allPoints_nonneg B
  have hpos : 0 < withRange pre post b d allPoints A + withRange pre post b d allPoints B := by
    have := lt_of_le_of_ne n1 (Ne.symm h01)
    linarith
  have e := e0 (by rw [withRange_append]; exact hpos.ne') p hp
  rw [withRange_append, withRange_append] at e
  refine ⟨by simp only [t]; rw [t0, t1, t2, withRange_append], ?_⟩
  rw [e]
  simp only [t]
  rw [t1, t2, q1, q2, mul_div_cancel₀ _ h01, mul_div_cancel₀ _ h02]

/-- C99: the equity with a range of two parts lies between the equities with the parts. -/
theorem C99_between {A B : List Combo} {rA rB : Results} {nA nB : Nat}
    (hwf : ∀ r ∈ pre ++ (A ++ B) :: post, WfRange r) (hb : CardMask b) (hd : CardMask d) (hT : 0 < nT) (hA : 0 < nA) (hB : 0 < nB)
    (h8 : pre.length + 1 + post.length ≤ 8) (hw : WholeShares (pre ++ (A ++ B) :: post) b d)
    (h : Delivers (pre ++ (A ++ B) :: post) b d nT r) (h1 : Delivers (pre ++ A :: post) b d nA rA)
    (h2 : Delivers (pre ++ B :: post) b d nB rB) {p : Nat} (hp : p < pre.length + 1 + post.length) {eA eB : ℚ}
    (h01 : totalCount (pre.length + 1 + post.length) rA ≠ 0) (h02 : totalCount (pre.length + 1 + post.length) rB ≠ 0)
    (heA : rA.equities[p]? = some (some eA)) (heB : rB.equities[p]? = some (some eB)) :
    ∃ e, r.equities[p]? = some (some e) ∧ min eA eB ≤ e ∧ e ≤ max eA eB ∧ (eA ≠ eB → min eA eB < e ∧ e < max eA eB) := by
  obtain ⟨_, he⟩ := C99_mix hwf hb hd hT hA hB h8 hw h h1 h2 hp h01 h02 heA heB
  have hAB := wf_here hwf
  obtain ⟨hsA, hsB⟩ := (wholeShares_append A B).1 hw
  have t1 := (h1.at (wf_put hwf fun c hc => hAB c (by simp [hc])) hb hd hA h8 hsA).1
  have t2 := (h2.at (wf_put hwf fun c hc => hAB c (by simp [hc])) hb hd hB h8 hsB).1
  have p1 : 0 < totalCount (pre.length + 1 + post.length) rA :=
    lt_of_le_of_ne (by rw [t1]; exact withRange_nonneg allPoints_nonneg A) (Ne.symm h01)
  have p2 : 0 < totalCount (pre.length + 1 + post.length) rB :=
    lt_of_le_of_ne (by rw [t2]; exact withRange_nonneg allPoints_nonneg B) (Ne.symm h02)
  generalize totalCount (pre.length + 1 + post.length) rA = a at *
  generalize totalCount (pre.length + 1 + post.length) rB = c at *
  refine ⟨_, he, ?_, ?_, fun hne => ?_⟩
  · rw [le_div_iff₀ (by linarith)]
    nlinarith [min_le_left eA eB, min_le_right eA eB]
  · rw [div_le_iff₀ (by linarith)]
    nlinarith [le_max_left eA eB, le_max_right eA eB]
  · rw [lt_div_iff₀ (by linarith), div_lt_iff₀ (by linarith)]
    rcases lt_or_gt_of_ne hne with hlt | hlt
    · rw [min_eq_left hlt.le, max_eq_right hlt.le]
      constructor <;> nlinarith
    · rw [min_eq_right hlt.le, max_eq_left hlt.le]
      constructor <;> nlinarith

/-- C99: raising the weights of a part of a range (by a factor `m'` instead of `m`) moves the equity of every player towards the equity
with this part alone: up if that is larger than with the rest of the range, down if it is smaller, and not at all if they are equal. -/
theorem C99_raise {A B : List Combo} {m m' : Nat} (hm : m < m') {r' rA rB : Results} {nT' nA nB : Nat}
    (hwf : ∀ r ∈ pre ++ (A ++ B) :: post, WfRange r) (hb : CardMask b) (hd : CardMask d) (hT : 0 < nT) (hT' : 0 < nT') (hA : 0 < nA)
    (hB : 0 < nB) (h8 : pre.length + 1 + post.length ≤ 8) (hw : WholeShares (pre ++ (A ++ B) :: post) b d)
    (h : Delivers (pre ++ (scaleRange m A ++ B) :: post) b d nT r) (h' : Delivers (pre ++ (scaleRange m' A ++ B) :: post) b d nT' r')
    (h1 : Delivers (pre ++ A :: post) b d nA rA) (h2 : Delivers (pre ++ B :: post) b d nB rB)
    {p : Nat} (hp : p < pre.length + 1 + post.length) {eA eB : ℚ}
    (h01 : totalCount (pre.length + 1 + post.length) rA ≠ 0) (h02 : totalCount (pre.length + 1 + post.length) rB ≠ 0)
    (heA : rA.equities[p]? = some (some eA)) (heB : rB.equities[p]? = some (some eB)) :
    ∃ e e', r.equities[p]? = some (some e) ∧ r'.equities[p]? = some (some e') ∧
      (eB < eA → e < e') ∧ (eA < eB → e' < e) ∧ (eA = eB → e = e') := by
  have hAB := wf_here hwf
  have hwA : WfRange A := fun c hc => hAB c (by simp [hc])
  have hwB : WfRange B := fun c hc => hAB c (by simp [hc])
  obtain ⟨hsA, hsB⟩ := (wholeShares_append A B).1 hw
  obtain ⟨t1, e1⟩ := h1.at (wf_put hwf hwA) hb hd hA h8 hsA
  obtain ⟨t2, e2⟩ := h2.at (wf_put hwf hwB) hb hd hB h8 hsB
  rw [t1] at h01
  rw [t2] at h02
  have q1 := e1 h01 p hp
  have q2 := e2 h02 p hp
  rw [heA, Option.some_inj, Option.some_inj, eq_div_iff h01] at q1
  rw [heB, Option.some_inj, Option.some_inj, eq_div_iff h02] at q2
  have p1 := lt_of_le_of_ne (withRange_nonneg (pre := pre) (post := post) (b := b) (d := d) allPoints_nonneg A) (Ne.symm h01)
  have p2 := lt_of_le_of_ne (withRange_nonneg (pre := pre) (post := post) (b := b) (d := d) allPoints_nonneg B) (Ne.symm h02)
  have key : ∀ (k nK : Nat) (rK : Results), 0 < nK → Delivers (pre ++ (scaleRange k A ++ B) :: post) b d nK rK →
      rK.equities[p]? = some (some ((k * (eA * withRange pre post b d allPoints A) + eB * withRange pre post b d allPoints B) /
        (k * withRange pre post b d allPoints A + withRange pre post b d allPoints B))) := by
    intro k nK rK hK hk
    have hwk : WfRange (scaleRange k A ++ B) := fun c hc => by
      rcases List.mem_append.1 hc with hc | hc
      · exact wf_scaled k hwA c hc
      · exact hwB c hc
    obtain ⟨_, e0⟩ := hk.at (wf_put hwf hwk) hb hd hK h8 ((wholeShares_append _ _).2 ⟨wholeShares_scale k hsA, hsB⟩)
    rw [withRange_append, all_scale] at e0
    have hpos : 0 < k * withRange pre post b d allPoints A + withRange pre post b d allPoints B := by positivity
    have e := e0 hpos.ne' p hp
    rw [withRange_append, pot_scale, ← q1, ← q2] at e
    exact e
  refine ⟨_, _, key m nT r hT h, key m' nT' r' hT' h', ?_⟩
  have hm' : (m : ℚ) < m' := by exact_mod_cast hm
  have hm0 : (0 : ℚ) ≤ m := by positivity
  generalize withRange pre post b d allPoints A = a at *
  generalize withRange pre post b d allPoints B = c at *
  generalize (m : ℚ) = x at *
  generalize (m' : ℚ) = y at *
  have d1 : 0 < x * a + c := by positivity
  have d2 : 0 < y * a + c := by
    have : 0 < y * a := mul_pos (by linarith) p1
    linarith
  have hac : 0 < a * c := mul_pos p1 p2
  refine ⟨fun hlt => ?_, fun hlt => ?_, fun heq => ?_⟩
  · rw [div_lt_div_iff₀ d1 d2]
    nlinarith [mul_pos (mul_pos hac (sub_pos.2 hm')) (sub_pos.2 hlt)]
  · rw [div_lt_div_iff₀ d2 d1]
    nlinarith [mul_pos (mul_pos hac (sub_pos.2 hm')) (sub_pos.2 hlt)]
  · rw [heq, div_eq_div_iff d1.ne' d2.ne']
    ring

/-- Some hand of the range has at least the mean, and some hand at most. -/
theorem exists_hand (p : Nat) {X : List Combo} (h0 : withRange pre post b d allPoints X ≠ 0) {s : ℚ} :
    ∃ c ∈ X, withRange pre post b d allPoints [c] ≠ 0 ∧
      s * (withRange pre post b d (potPoints p) X / withRange pre post b d allPoints X) ≤
        s * (withRange pre post b d (potPoints p) [c] / withRange pre post b d allPoints [c]) := by
  by_contra hno
  push Not at hno
  have hpos := lt_of_le_of_ne (withRange_nonneg (pre := pre) (post := post) (b := b) (d := d) allPoints_nonneg X) (Ne.symm h0)
  set e := withRange pre post b d (potPoints p) X / withRange pre post b d allPoints X with he
  have hz : ∀ c ∈ X, withRange pre post b d allPoints [c] = 0 → withRange pre post b d (potPoints p) [c] = 0 :=
    fun c _ h => pot_zero h p
  have hle : ∀ c ∈ X, s * withRange pre post b d (potPoints p) [c] ≤ s * e * withRange pre post b d allPoints [c] := by
    intro c hc
    by_cases h : withRange pre post b d allPoints [c] = 0
    · rw [hz c hc h, h, mul_zero, mul_zero]
    · have hp := lt_of_le_of_ne (withRange_nonneg (pre := pre) (post := post) (b := b) (d := d) allPoints_nonneg [c]) (Ne.symm h)
      have := hno c hc h
      rw [← mul_div_assoc, div_lt_iff₀ hp] at this
      exact this.le
  have hex : ∃ c ∈ X, withRange pre post b d allPoints [c] ≠ 0 := by
    by_contra hn
    push Not at hn
    apply h0
    rw [withRange_sum]
    apply List.sum_eq_zero
    intro y hy
    obtain ⟨c, hc, rfl⟩ := List.mem_map.1 hy
    exact hn c hc
  obtain ⟨c, hc, hc0⟩ := hex
  have hlt : s * withRange pre post b d (potPoints p) [c] < s * e * withRange pre post b d allPoints [c] := by
    have hp := lt_of_le_of_ne (withRange_nonneg (pre := pre) (post := post) (b := b) (d := d) allPoints_nonneg [c]) (Ne.symm hc0)
    have := hno c hc hc0
    rwa [← mul_div_assoc, div_lt_iff₀ hp] at this
  have hs : (X.map fun c => s * withRange pre post b d (potPoints p) [c]).sum <
      (X.map fun c => s * e * withRange pre post b d allPoints [c]).sum :=
    List.sum_lt_sum _ _ hle ⟨c, hc, hlt⟩
  rw [List.sum_map_mul_left, List.sum_map_mul_left, ← withRange_sum, ← withRange_sum, he, mul_assoc, div_mul_cancel₀ _ h0] at hs
  exact lt_irrefl _ hs

/-- C99: no range does better than its best hand: some hand of the range, played alone, has at least the equity of the range (and some
hand at most), for the player who holds it and for every other player. -/
theorem C99_best {X : List Combo} (hwf : ∀ r ∈ pre ++ X :: post, WfRange r) (hb : CardMask b) (hd : CardMask d) (hT : 0 < nT)
    (h8 : pre.length + 1 + post.length ≤ 8) (hw : WholeShares (pre ++ X :: post) b d) (h : Delivers (pre ++ X :: post) b d nT r)
    (h0 : totalCount (pre.length + 1 + post.length) r ≠ 0) {p : Nat} (hp : p < pre.length + 1 + post.length) {e : ℚ}
    (he : r.equities[p]? = some (some e)) :
    (∃ c ∈ X, ∀ nT' r', 0 < nT' → Delivers (pre ++ [c] :: post) b d nT' r' → ∃ e', r'.equities[p]? = some (some e') ∧ e ≤ e') ∧
    ∃ c ∈ X, ∀ nT' r', 0 < nT' → Delivers (pre ++ [c] :: post) b d nT' r' → ∃ e', r'.equities[p]? = some (some e') ∧ e' ≤ e := by
  obtain ⟨t0, e0⟩ := h.at hwf hb hd hT h8 hw
  rw [t0] at h0
  have q := e0 h0 p hp
  rw [he, Option.some_inj, Option.some_inj] at q
  have hX := wf_here hwf
  have one : ∀ c ∈ X, WfRange [c] ∧ WholeShares (pre ++ [c] :: post) b d := by
    intro c hc
    refine ⟨fun x hx => hX x (by rw [List.mem_singleton.1 hx]; exact hc), ?_⟩
    obtain ⟨L, R, rfl⟩ := List.append_of_mem hc
    have := ((wholeShares_append L (c :: R)).1 hw).2
    rw [show c :: R = [c] ++ R from rfl] at this
    exact ((wholeShares_append [c] R).1 this).1
  constructor
  · obtain ⟨c, hc, hc0, hle⟩ := exists_hand (pre := pre) (post := post) (b := b) (d := d) p h0 (s := 1)
    refine ⟨c, hc, fun nT' r' hT' h' => ⟨_, (h'.at (wf_put hwf (one c hc).1) hb hd hT' h8 (one c hc).2).2 hc0 p hp, ?_⟩⟩
    rw [q]
    linarith
  · obtain ⟨c, hc, hc0, hle⟩ := exists_hand (pre := pre) (post := post) (b := b) (d := d) p h0 (s := -1)
    refine ⟨c, hc, fun nT' r' hT' h' => ⟨_, (h'.at (wf_put hwf (one c hc).1) hb hd hT' h8 (one c hc).2).2 hc0 p hp, ?_⟩⟩
    rw [q]
    linarith

/-- The sums over the showdowns with one hand at the place of the range. -/
theorem withRange_congr {f g : List WHand × List Nat → ℚ} {c : Combo}
    (h : ∀ D B, pre.length < D.length → D.getD pre.length (0, 0, 0) = toHole c → f (D, B) = g (D, B)) :
    withRange pre post b d f [c] = withRange pre post b d g [c] := by
  unfold withRange overShows
  congr 1
  apply List.map_congr_left
  rintro ⟨D, B⟩ hx
  unfold showdowns at hx
  obtain ⟨D', hD, hB⟩ := List.mem_flatMap.1 hx
  obtain ⟨B', _, e⟩ := List.mem_map.1 hB
  obtain ⟨rfl, rfl⟩ := Prod.mk.inj e
  obtain ⟨hl, hall⟩ := (mem_choices _ _).1 (List.mem_filter.1 hD).1
  have hlen : (specRanges (pre ++ [c] :: post)).length = pre.length + 1 + post.length := by simp [specRanges]; omega
  have hlt : pre.length < D'.length := by omega
  refine h D' B' hlt ?_
  have := hall pre.length hlt (by omega)
  rw [List.getD_eq_getElem _ _ hlt]
  simp only [specRanges, List.getElem_map] at this
  rw [List.getElem_append_right (le_refl _)] at this
  simpa using this

/-- For a range without a hand twice, the sum over the showdowns with a hand is the sum with this hand alone. -/
theorem withRange_hand {f g : List WHand × List Nat → ℚ} {X : List Combo} (hdist : DistinctHands X) {c : Combo} (hc : c ∈ X)
    (hin : ∀ D B, Holds pre.length c.c1 c.c2 D → f (D, B) = g (D, B)) (hout : ∀ D B, ¬ Holds pre.length c.c1 c.c2 D → f (D, B) = 0) :
    withRange pre post b d f X = withRange pre post b d g [c] := by
  obtain ⟨L, R, rfl⟩ := List.append_of_mem hc
  have hother : ∀ x ∈ L ++ R, withRange pre post b d f [x] = 0 := by
    intro x hx
    have hne : ¬ ((x.c1 = c.c1 ∧ x.c2 = c.c2) ∨ (x.c1 = c.c2 ∧ x.c2 = c.c1)) := by
      unfold DistinctHands at hdist
      rw [List.pairwise_append, List.pairwise_cons] at hdist
      rcases List.mem_append.1 hx with hx | hx
      · exact hdist.2.2 x hx c (by simp)
      · have := hdist.2.1.1 x hx
        omega
    rw [withRange_congr (g := fun _ => 0) (fun D B hl hD => hout D B (fun hh => hne (by
      obtain ⟨_, hh⟩ := hh
      rw [hD] at hh
      exact hh)))]
    unfold withRange overShows
    simp
  have e1 := withRange_append (pre := pre) (post := post) (b := b) (d := d) f L (c :: R)
  have e2 := withRange_append (pre := pre) (post := post) (b := b) (d := d) f [c] R
  rw [List.singleton_append] at e2
  have z : ∀ Y : List Combo, (∀ x ∈ Y, x ∈ L ++ R) → withRange pre post b d f Y = 0 := by
    intro Y hY
    rw [withRange_sum]
    apply List.sum_eq_zero
    intro y hy
    obtain ⟨x, hx, rfl⟩ := List.mem_map.1 hy
    exact hother x (hY x hx)
  rw [e1, e2, z L (fun x hx => by simp [hx]), z R (fun x hx => by simp [hx]), zero_add, add_zero]
  exact withRange_congr fun D B hl hD => hin D B ⟨hl, Or.inl (by rw [hD]; exact ⟨rfl, rfl⟩)⟩

/-- C99: the equity that `get_hand_result` shows for a hand of a player is the equity of this player in the calculation in which the
player has this hand only. -/
theorem C99_alone {X : List Combo} (hwf : ∀ r ∈ pre ++ X :: post, WfRange r) (hdist : ∀ r ∈ pre ++ X :: post, DistinctHands r)
    (hb : CardMask b) (hd : CardMask d) (hT : 0 < nT) (h8 : pre.length + 1 + post.length ≤ 8)
    (hw : WholeShares (pre ++ X :: post) b d) {cancelled : Bool} {sent : List Nat}
    (h : ExactEquity (pre ++ X :: post) b d nT cancelled false (.ok r) sent) {c : Combo} (hc : c ∈ X) {r' : Results} {nT' : Nat}
    (hT' : 0 < nT') (h' : Delivers (pre ++ [c] :: post) b d nT' r') (h0 : totalCount (pre.length + 1 + post.length) r' ≠ 0) :
    ∃ e, (r.handResults (NUM_HANDS * pre.length + getCardIndex c.c1 c.c2)).equity = some e ∧
      r'.equities[pre.length]? = some (some e) := by
  have hl : (pre ++ X :: post).length = pre.length + 1 + post.length := by simp; omega
  have hX := wf_here hwf
  obtain ⟨hx, hy, hxy⟩ := hX c hc
  have hone : WfRange [c] := fun x hx => hX x (by rw [List.mem_singleton.1 hx]; exact hc)
  have hs1 : WholeShares (pre ++ [c] :: post) b d := by
    obtain ⟨L, R, rfl⟩ := List.append_of_mem hc
    have := ((wholeShares_append L (c :: R)).1 hw).2
    rw [show c :: R = [c] ++ R from rfl] at this
    exact ((wholeShares_append [c] R).1 this).1
  obtain ⟨t1, e1⟩ := h'.at (wf_put hwf hone) hb hd hT' h8 hs1
  rw [t1] at h0
  have q1 := e1 h0 pre.length (by omega)
  have hD : Delivers (pre ++ X :: post) b d nT r := Or.inl ⟨cancelled, sent, h⟩
  have hcnt := (hD.counts hwf hb hd hT).hand pre.length (by omega) c.c1 hx c.c2 hy hxy
  have hvalid : ∀ q, q = pre.length → q < (pre ++ X :: post).length ∧ c.c1 < 52 ∧ c.c2 < 52 ∧ c.c1 ≠ c.c2 :=
    fun q hq => ⟨by omega, hx, hy, hxy⟩
  have hdX : DistinctHands X := hdist X (by simp)
  have vt := hD.value hwf hb hd hT (k := .total pre.length c.c1 c.c2) (hvalid _ rfl)
  have vw := hD.value hwf hb hd hT (k := .wins pre.length c.c1 c.c2) (hvalid _ rfl)
  have vs := hD.value hwf hb hd hT (k := .shares pre.length c.c1 c.c2) (hvalid _ rfl)
  have st : (handTotal (showdowns (specRanges (pre ++ X :: post)) (maskCards b) (maskCards d)) pre.length c.c1 c.c2 : ℚ) =
      withRange pre post b d allPoints [c] := by
    have e : (r.handResults (NUM_HANDS * pre.length + getCardIndex c.c1 c.c2)).total =
        handTotal (showdowns (specRanges (pre ++ X :: post)) (maskCards b) (maskCards d)) pre.length c.c1 c.c2 :=
      congrArg (fun z : Cell => z.2.2.1) hcnt
    rw [← e]
    refine vt.trans ?_
    refine withRange_hand hdX hc (fun D B hh => ?_) (fun D B hh => ?_)
    · simp only [Counter.points, allPoints, if_pos hh]
    · simp only [Counter.points, if_neg hh]
  have sp : (handWins (showdowns (specRanges (pre ++ X :: post)) (maskCards b) (maskCards d)) pre.length c.c1 c.c2 : ℚ) +
      handShares (showdowns (specRanges (pre ++ X :: post)) (maskCards b) (maskCards d)) pre.length c.c1 c.c2 =
      withRange pre post b d (potPoints pre.length) [c] := by
    have ew : (r.handResults (NUM_HANDS * pre.length + getCardIndex c.c1 c.c2)).wins =
        handWins (showdowns (specRanges (pre ++ X :: post)) (maskCards b) (maskCards d)) pre.length c.c1 c.c2 :=
      congrArg (fun z : Cell => z.1) hcnt
    have es : (r.handResults (NUM_HANDS * pre.length + getCardIndex c.c1 c.c2)).correctedTies =
        handShares (showdowns (specRanges (pre ++ X :: post)) (maskCards b) (maskCards d)) pre.length c.c1 c.c2 :=
      congrArg (fun z : Cell => z.2.2.2) hcnt
    rw [← ew, ← es]
    refine (congrArg₂ (· + ·) vw vs).trans ?_
    refine (withRange_add (pre := pre) (post := post) (b := b) (d := d) _ _ X).symm.trans ?_
    refine withRange_hand hdX hc (fun D B hh => ?_) (fun D B hh => ?_)
    · simp only [Counter.points, potPoints, hh, true_and]
    · simp only [Counter.points, hh, false_and, if_false, add_zero]
  have hav : ∃ w, Available (pre ++ X :: post)[pre.length] b d c.c1 c.c2 w := by
    refine ⟨c.w, Or.inl (by rw [List.getElem_append_right (le_refl _)]; simpa using hc), ?_⟩
    by_contra hn
    apply h0
    unfold withRange overShows
    apply List.sum_eq_zero
    intro y hy
    obtain ⟨x, hx, rfl⟩ := List.mem_map.1 hy
    exfalso
    unfold showdowns at hx
    obtain ⟨D, hD, _⟩ := List.mem_flatMap.1 hx
    obtain ⟨hch, hleg⟩ := List.mem_filter.1 hD
    have hleg := (of_decide_eq_true hleg).2
    obtain ⟨hl', hall⟩ := (mem_choices _ _).1 hch
    have hlen : (specRanges (pre ++ [c] :: post)).length = pre.length + 1 + post.length := by simp [specRanges]; omega
    have hlt : pre.length < D.length := by omega
    have hm := hall pre.length hlt (by omega)
    simp only [specRanges, List.getElem_map] at hm
    rw [List.getElem_append_right (le_refl _)] at hm
    have hm : D[pre.length] = toHole c := by simpa using hm
    apply hn
    intro z hz
    apply hleg
    unfold dealt
    refine List.mem_flatMap.2 ⟨_, List.getElem_mem hlt, ?_⟩
    rw [hm]
    exact hz
  have hpos : 0 < handTotal (showdowns (specRanges (pre ++ X :: post)) (maskCards b) (maskCards d)) pre.length c.c1 c.c2 := by
    rcases Nat.eq_zero_or_pos (handTotal (showdowns (specRanges (pre ++ X :: post)) (maskCards b) (maskCards d)) pre.length c.c1 c.c2)
      with h | h
    · rw [h] at st
      exact absurd st.symm (by simpa using h0)
    · exact h
  have := (C57_equity hwf hdist hb hd hT h (p := pre.length) (by omega) hx hy hxy hav hpos).1
  rw [sp, st] at this
  exact ⟨_, this, q1⟩

/-- The hand belongs to the combo (`AA`, `AKs`, `AKo`, …). -/
def inCombo (c : PreCombo) (x : Combo) : Bool := decide ((x.c1, x.c2) ∈ c.hands ∨ (x.c2, x.c1) ∈ c.hands)

theorem sum_at_most_one {α : Type} (hs : List α) (hn : hs.Nodup) (P : α → Prop) [DecidablePred P]
    (h1 : ∀ x ∈ hs, ∀ y ∈ hs, P x → P y → x = y) (w : ℚ) :
    (hs.map fun h => if P h then w else 0).sum = if ∃ h ∈ hs, P h then w else 0 := by
  induction hs with
  | nil => simp
  | cons a hs ih =>
    rw [List.nodup_cons] at hn
    have ih' := ih hn.2 (fun x hx y hy => h1 x (by simp [hx]) y (by simp [hy]))
    rw [List.map_cons, List.sum_cons, ih']
    by_cases ha : P a
    · have hno : ¬ ∃ h ∈ hs, P h := by
        rintro ⟨h, hh, hp⟩
        exact hn.1 (h1 a (by simp) h (by simp [hh]) ha hp ▸ hh)
      rw [if_pos ha, if_neg hno, if_pos ⟨a, by simp, ha⟩, add_zero]
    · rw [if_neg ha, zero_add]
      congr 1
      simp [ha]

theorem combo_nodup {c : PreCombo} (hc : c ∈ preCombos) : c.hands.Nodup := by
  have h : ∀ c ∈ preCombos, c.hands.Nodup := by decide +kernel
  exact h c hc

/-- The sums over the showdowns with the hands of a combo are the sum with these hands alone. -/
theorem withRange_combo {c : PreCombo} (hc : c ∈ preCombos) (g : List WHand × List Nat → ℚ) (X : List Combo) :
    (c.hands.map fun h => withRange pre post b d (fun s => if Holds pre.length h.1 h.2 s.1 then g s else 0) X).sum =
      withRange pre post b d g (X.filter (inCombo c)) := by
  have e1 : ∀ h : Nat × Nat, withRange pre post b d (fun s => if Holds pre.length h.1 h.2 s.1 then g s else 0) X =
      (X.map fun x => if (x.c1 = h.1 ∧ x.c2 = h.2) ∨ (x.c1 = h.2 ∧ x.c2 = h.1) then withRange pre post b d g [x] else 0).sum := by
    intro h
    rw [withRange_sum]
    congr 1
    apply List.map_congr_left
    intro x _
    have hh : ∀ D : List WHand, pre.length < D.length → D.getD pre.length (0, 0, 0) = toHole x →
        (Holds pre.length h.1 h.2 D ↔ (x.c1 = h.1 ∧ x.c2 = h.2) ∨ (x.c1 = h.2 ∧ x.c2 = h.1)) := by
      intro D hl hD
      unfold Holds
      rw [hD]
      simp [hl, toHole]
    split
    · next hm => exact withRange_congr fun D B hl hD => if_pos ((hh D hl hD).2 hm)
    · next hm =>
      rw [withRange_congr (g := fun _ => 0) fun D B hl hD => if_neg (fun k => hm ((hh D hl hD).1 k))]
      unfold withRange overShows
      simp
  simp only [e1]
  rw [sum_map_comm, withRange_sum, sum_filter_map]
  congr 1
  apply List.map_congr_left
  intro x _
  rw [sum_at_most_one c.hands (combo_nodup hc) (fun h => (x.c1 = h.1 ∧ x.c2 = h.2) ∨ (x.c1 = h.2 ∧ x.c2 = h.1))]
  · congr 1
    unfold inCombo
    rw [decide_eq_true_iff]
    apply propext
    constructor
    · rintro ⟨⟨y, z⟩, hh, ⟨k1, k2⟩ | ⟨k1, k2⟩⟩
      · exact Or.inl (by rw [k1, k2]; exact hh)
      · exact Or.inr (by rw [k1, k2]; exact hh)
    · rintro (hh | hh)
      · exact ⟨_, hh, Or.inl ⟨rfl, rfl⟩⟩
      · exact ⟨_, hh, Or.inr ⟨rfl, rfl⟩⟩
  · rintro ⟨y, z⟩ h1 ⟨y', z'⟩ h2 k1 k2
    have m1 := (mem_allHands.1 (mem_hands hc h1)).2.2
    have m2 := (mem_allHands.1 (mem_hands hc h2)).2.2
    simp only at k1 k2
    rw [Prod.mk.injEq]
    omega

theorem counted_sum {us : List UnitResults} (f : UnitResults → ℚ) (h : ∀ u ∈ us, ¬ (u.valid = true ∧ 0 < u.total) → f u = 0) :
    ((counted us).map f).sum = (us.map f).sum := by
  unfold counted
  rw [sum_filter_map]
  congr 1
  apply List.map_congr_left
  intro u hu
  simp only [decide_eq_true_iff]
  split
  · rfl
  · next hn => exact (h u hu hn).symm

/-- C99: the equity that `get_combo_result` shows for a combo (`AKs`) of a player is the equity of this player in the calculation in
which the player has only the hands of this combo (as far as they are in the range, and with their weights). -/
theorem C99_combo {X : List Combo} (hwf : ∀ r ∈ pre ++ X :: post, WfRange r) (hdist : ∀ r ∈ pre ++ X :: post, DistinctHands r)
    (hb : CardMask b) (hd : CardMask d) (hT : 0 < nT) (h8 : pre.length + 1 + post.length ≤ 8)
    (hw : WholeShares (pre ++ X :: post) b d) {cancelled : Bool} {sent : List Nat}
    (h : ExactEquity (pre ++ X :: post) b d nT cancelled false (.ok r) sent) {c : PreCombo} (hc : c ∈ preCombos) {r' : Results} {nT' : Nat}
    (hT' : 0 < nT') (h' : Delivers (pre ++ X.filter (inCombo c) :: post) b d nT' r')
    (h0 : totalCount (pre.length + 1 + post.length) r' ≠ 0) (h64 : totalCount (pre.length + 1 + post.length) r' < 2 ^ 64) :
    ∃ u e, getComboResult r pre.length c.name = some (some u) ∧ u.equity = some e ∧ r'.equities[pre.length]? = some (some e) := by
  have hl : (pre ++ X :: post).length = pre.length + 1 + post.length := by simp; omega
  have hX := wf_here hwf
  have hone : WfRange (X.filter (inCombo c)) := fun x hx => hX x (List.mem_filter.1 hx).1
  have hs1 : WholeShares (pre ++ X.filter (inCombo c) :: post) b d := by
    have hz : ∀ x ∈ X, withRange pre post b d (oddPot 1) [x] = 0 := by
      intro x hx
      rw [← wholeShares_iff]
      obtain ⟨L, R, rfl⟩ := List.append_of_mem hx
      have := ((wholeShares_append L (x :: R)).1 hw).2
      rw [show x :: R = [x] ++ R from rfl] at this
      exact ((wholeShares_append [x] R).1 this).1
    rw [wholeShares_iff, withRange_sum]
    apply List.sum_eq_zero
    intro y hy
    obtain ⟨x, hx, rfl⟩ := List.mem_map.1 hy
    exact hz x (List.mem_filter.1 hx).1
  obtain ⟨t1, e1⟩ := h'.at (wf_put hwf hone) hb hd hT' h8 hs1
  rw [t1] at h0 h64
  have q1 := e1 h0 pre.length (by omega)
  have hD : Delivers (pre ++ X :: post) b d nT r := Or.inl ⟨cancelled, sent, h⟩
  have hcards : ∀ x ∈ c.hands, x.1 < 52 ∧ x.2 < 52 ∧ x.1 ≠ x.2 := by
    rintro ⟨x, y⟩ hxy
    obtain ⟨hx, hy, hne⟩ := mem_allHands.1 (mem_hands hc hxy)
    exact ⟨hx, hy, by rintro (rfl : x = y); omega⟩
  have val : ∀ x ∈ c.hands, ∀ k : Counter, (k = .total pre.length x.1 x.2 ∨ k = .wins pre.length x.1 x.2 ∨ k = .shares pre.length x.1 x.2) →
      k.value r = withRange pre post b d k.points X := by
    intro x hx k hk
    have hv := hcards x hx
    refine hD.value hwf hb hd hT ?_
    rcases hk with rfl | rfl | rfl <;> exact ⟨by omega, hv⟩
  have hzero : ∀ u ∈ handsOf pre.length r.handResults c.hands, ¬ (u.valid = true ∧ 0 < u.total) →
      u.wins = 0 ∧ u.total = 0 ∧ u.correctedTies = 0 := by
    intro u hu hn
    obtain ⟨x, hx, rfl⟩ := List.mem_map.1 hu
    obtain ⟨c1, c2, c3⟩ := hcards x hx
    have hr := C57_rates hwf hdist hb hd hT h (p := pre.length) (by omega) c1 c2 c3
    have hv := (C38_weights hwf hdist hb hd h (p := pre.length) (by omega) c1 c2 c3).1
    by_cases hav : ∃ w, Available (pre ++ X :: post)[pre.length] b d x.1 x.2 w
    · have ht : (r.handResults (NUM_HANDS * pre.length + getCardIndex x.1 x.2)).total = 0 := by
        by_contra h0
        exact hn ⟨hv.2 hav, Nat.pos_of_ne_zero h0⟩
      have v0 : withRange pre post b d (Counter.total pre.length x.1 x.2).points X = 0 := by
        rw [← val x hx _ (Or.inl rfl)]
        show ((r.handResults (NUM_HANDS * pre.length + getCardIndex x.1 x.2)).total : ℚ) = 0
        rw [ht, Nat.cast_zero]
      have small : ∀ k : Counter, (k = .wins pre.length x.1 x.2 ∨ k = .shares pre.length x.1 x.2) → k.value r = 0 := by
        intro k hk
        rw [val x hx k (Or.inr hk)]
        refine le_antisymm (le_trans (withRange_mono (g := (Counter.total pre.length x.1 x.2).points) (fun s => ?_) X) v0.le) (withRange_nonneg (fun s => ?_) X)
        · have hw0 : (0 : ℚ) ≤ Spec.dealWeight s.1 := by positivity
          rcases hk with rfl | rfl
          · simp only [Counter.points]
            by_cases hh : Holds pre.length x.1 x.2 s.1
            · simp only [hh, true_and, if_true]
              split
              · exact le_refl _
              · exact hw0
            · simp [hh]
          · simp only [Counter.points]
            by_cases hh : Holds pre.length x.1 x.2 s.1
            · simp only [hh, true_and, if_true]
              split
              · next hm =>
                apply div_le_self hw0
                exact_mod_cast List.length_pos_of_mem hm.1
              · exact hw0
            · simp [hh]
        · rcases hk with rfl | rfl <;> simp only [Counter.points] <;> split <;> positivity
      exact ⟨Nat.cast_eq_zero.1 (small (.wins pre.length x.1 x.2) (Or.inl rfl)), ht, small (.shares pre.length x.1 x.2) (Or.inr rfl)⟩
    · obtain ⟨k1, _, k2, k3, _⟩ := hr.2 hav
      exact ⟨k1, k2, k3⟩
  have st : ((((counted (handsOf pre.length r.handResults c.hands)).map (·.total)).sum : Nat) : ℚ) =
      withRange pre post b d allPoints (X.filter (inCombo c)) := by
    rw [Nat.cast_list_sum, List.map_map, show (Nat.cast ∘ fun u : UnitResults => u.total) = fun u => (u.total : ℚ) from rfl,
      counted_sum _ (fun u hu hn => by rw [(hzero u hu hn).2.1]; simp), ← withRange_combo hc, handsOf, List.map_map]
    congr 1
    apply List.map_congr_left
    intro x hx
    exact val x hx (.total pre.length x.1 x.2) (Or.inl rfl)
  have sp : ((((counted (handsOf pre.length r.handResults c.hands)).map (·.wins)).sum : Nat) : ℚ) +
      ((counted (handsOf pre.length r.handResults c.hands)).map (·.correctedTies)).sum =
      withRange pre post b d (potPoints pre.length) (X.filter (inCombo c)) := by
    rw [Nat.cast_list_sum, List.map_map, show (Nat.cast ∘ fun u : UnitResults => u.wins) = fun u => (u.wins : ℚ) from rfl,
      counted_sum _ (fun u hu hn => by rw [(hzero u hu hn).1]; simp), counted_sum _ (fun u hu hn => (hzero u hu hn).2.2),
      ← List.sum_map_add, ← withRange_combo hc, handsOf, List.map_map]
    congr 1
    apply List.map_congr_left
    intro x hx
    refine (congrArg₂ (· + ·) (val x hx (.wins pre.length x.1 x.2) (by simp)) (val x hx (.shares pre.length x.1 x.2) (by simp))).trans ?_
    rw [← withRange_add]
    congr 1
    funext s
    by_cases hh : Holds pre.length x.1 x.2 s.1
    · simp only [Counter.points, potPoints, hh, true_and, if_true]
    · simp only [Counter.points, hh, false_and, if_false, add_zero]
  have hne : counted (handsOf pre.length r.handResults c.hands) ≠ [] := by
    intro hno
    rw [hno] at st
    exact h0 (by rw [← st]; simp)
  have hv := (C36_values (r := r) hne (by
    have h64 : ((((counted (handsOf pre.length r.handResults c.hands)).map (·.total)).sum : Nat) : ℚ) < ((2 ^ 64 : Nat) : ℚ) := by
      rw [st]
      exact_mod_cast h64
    exact_mod_cast h64)).2.2.2.2.2.2.1
  rw [sp, st] at hv
  exact ⟨_, _, (C13_combo hwf hb hd h (by omega) _ _).2 ⟨c, hc, rfl, rfl⟩, hv, q1⟩

/-! ## Examples -/

/-- The other two aces (four of a kind on the board of the examples) and a pair of queens, against a pair of kings. -/
def acesPart : List Combo := [⟨51, 50, 100⟩]
def queensPart : List Combo := [⟨41, 40, 100⟩]
def kingsRange : List Combo := [⟨47, 46, 100⟩]

theorem mix_wf : ∀ r ∈ [] ++ (acesPart ++ queensPart) :: [kingsRange], WfRange r := by
  unfold WfRange acesPart queensPart kingsRange; decide

theorem mix_distinct : ∀ r ∈ [] ++ (acesPart ++ queensPart) :: [kingsRange], DistinctHands r := by
  unfold DistinctHands acesPart queensPart kingsRange; decide

theorem mix_whole : WholeShares ([] ++ (acesPart ++ queensPart) :: [kingsRange]) fourAcesMask 0 := by
  unfold WholeShares; decide +kernel

theorem mix_delivers {X : List Combo} (hX : WfRange X)
    (hprod : ((fromRanges (([X, kingsRange] : List (List Combo)).map fun h => removeConflictingCombos h fourAcesMask 0)).map
      (·.size)).prod + 2000000 < 2 ^ 64) (nT : Nat) : ∃ r, Delivers ([] ++ X :: [kingsRange]) fourAcesMask 0 nT r :=
  delivers_exists (wf_put (pre := []) mix_wf hX) fourAces_deck (by unfold CardMask; decide)
    (show validate 2 fourAcesMask 0 = none by decide) hprod nT

theorem mix_aces {nT : Nat} (hT : 0 < nT) {r : Results} (h : Delivers ([] ++ acesPart :: [kingsRange]) fourAcesMask 0 nT r) :
    totalCount 2 r ≠ 0 ∧ r.equities[0]? = some (some 1) := by
  have hall : withRange [] [kingsRange] fourAcesMask 0 allPoints acesPart = 10000 := by decide +kernel
  have hpot : withRange [] [kingsRange] fourAcesMask 0 (potPoints 0) acesPart = 10000 := by decide +kernel
  obtain ⟨t, e⟩ := h.at (wf_put (pre := []) mix_wf (by unfold WfRange acesPart; decide)) fourAces_deck (by unfold CardMask; decide) hT
    (by decide) ((wholeShares_append (pre := []) _ _).1 mix_whole).1
  rw [hall] at t e
  refine ⟨by rw [show (2 : Nat) = ([] : List (List Combo)).length + 1 + [kingsRange].length from rfl, t]; norm_num, ?_⟩
  rw [e (by norm_num) 0 (by decide), hpot]
  norm_num

theorem mix_queens {nT : Nat} (hT : 0 < nT) {r : Results} (h : Delivers ([] ++ queensPart :: [kingsRange]) fourAcesMask 0 nT r) :
    totalCount 2 r ≠ 0 ∧ r.equities[0]? = some (some 0) := by
  have hall : withRange [] [kingsRange] fourAcesMask 0 allPoints queensPart = 10000 := by decide +kernel
  have hpot : withRange [] [kingsRange] fourAcesMask 0 (potPoints 0) queensPart = 0 := by decide +kernel
  obtain ⟨t, e⟩ := h.at (wf_put (pre := []) mix_wf (by unfold WfRange queensPart; decide)) fourAces_deck (by unfold CardMask; decide) hT
    (by decide) ((wholeShares_append (pre := []) _ _).1 mix_whole).2
  rw [hall] at t e
  refine ⟨by rw [show (2 : Nat) = ([] : List (List Combo)).length + 1 + [kingsRange].length from rfl, t]; norm_num, ?_⟩
  rw [e (by norm_num) 0 (by decide), hpot]
  norm_num

/-- There are runs of all the calculations: the equity of the aces alone is 1, of the queens alone 0, of both lies strictly between
them, and grows when the aces get three times the weight. -/
example : ∃ rA rB r r' e e', Delivers ([] ++ acesPart :: [kingsRange]) fourAcesMask 0 1 rA ∧
    Delivers ([] ++ queensPart :: [kingsRange]) fourAcesMask 0 1 rB ∧
    Delivers ([] ++ (scaleRange 1 acesPart ++ queensPart) :: [kingsRange]) fourAcesMask 0 1 r ∧
    Delivers ([] ++ (scaleRange 3 acesPart ++ queensPart) :: [kingsRange]) fourAcesMask 0 2 r' ∧
    r.equities[0]? = some (some e) ∧ r'.equities[0]? = some (some e') ∧ e < e' := by
  obtain ⟨rA, hA⟩ := mix_delivers (X := acesPart) (by unfold WfRange acesPart; decide) (by decide +kernel) 1
  obtain ⟨rB, hB⟩ := mix_delivers (X := queensPart) (by unfold WfRange queensPart; decide) (by decide +kernel) 1
  obtain ⟨r, h⟩ := mix_delivers (X := scaleRange 1 acesPart ++ queensPart)
    (by unfold WfRange scaleRange acesPart queensPart; decide) (by decide +kernel) 1
  obtain ⟨r', h'⟩ := mix_delivers (X := scaleRange 3 acesPart ++ queensPart)
    (by unfold WfRange scaleRange acesPart queensPart; decide) (by decide +kernel) 2
  obtain ⟨a0, a1⟩ := mix_aces (by decide) hA
  obtain ⟨b0, b1⟩ := mix_queens (by decide) hB
  obtain ⟨e, e', he, he', hlt, _⟩ := C99_raise (pre := []) (p := 0) (m := 1) (m' := 3) (by decide) mix_wf fourAces_deck
    (by unfold CardMask; decide) (by decide) (by decide) (by decide) (by decide) (by decide) mix_whole h h' hA hB (by decide) a0 b0 a1 b1
  exact ⟨rA, rB, r, r', e, e', hA, hB, h, h', he, he', hlt (by norm_num)⟩

/-- The hand whose equity is at least that of the range exists, and the equity shown for the aces in the calculation with both hands
is 1, that of the aces alone. -/
example : ∃ r e sent, ExactEquity ([] ++ (acesPart ++ queensPart) :: [kingsRange]) fourAcesMask 0 1 false false (.ok r) sent ∧
    (r.handResults (NUM_HANDS * 0 + getCardIndex 51 50)).equity = some 1 ∧ r.equities[0]? = some (some e) ∧ 0 < e ∧ e < 1 := by
  obtain ⟨rA, hA⟩ := mix_delivers (X := acesPart) (by unfold WfRange acesPart; decide) (by decide +kernel) 1
  obtain ⟨rB, hB⟩ := mix_delivers (X := queensPart) (by unfold WfRange queensPart; decide) (by decide +kernel) 1
  obtain ⟨a0, a1⟩ := mix_aces (by decide) hA
  obtain ⟨b0, b1⟩ := mix_queens (by decide) hB
  obtain ⟨r, sent, h⟩ := run_exists' mix_wf fourAces_deck (show CardMask 0 by unfold CardMask; decide) (by decide) (by decide +kernel)
    (by decide +kernel) 1 false
  obtain ⟨e, he, _, _, hs⟩ := C99_between (pre := []) (p := 0) mix_wf fourAces_deck (by unfold CardMask; decide) (by decide)
    (by decide) (by decide) (by decide) mix_whole (Or.inl ⟨false, sent, h⟩) hA hB (by decide) a0 b0 a1 b1
  obtain ⟨e', h1, h2⟩ := C99_alone (pre := []) mix_wf mix_distinct fourAces_deck (by unfold CardMask; decide) (by decide) (by decide)
    mix_whole h (c := ⟨51, 50, 100⟩) (by decide) (by decide) hA a0
  rw [show rA.equities[([] : List (List Combo)).length]? = rA.equities[0]? from rfl, a1, Option.some_inj, Option.some_inj] at h2
  refine ⟨r, e, sent, h, h2 ▸ h1, he, ?_⟩
  simpa using hs (by norm_num)

/-- The combo `AA` of the player with aces and queens is shown with the equity of the aces alone. -/
example : ∃ r sent u, ExactEquity ([] ++ (acesPart ++ queensPart) :: [kingsRange]) fourAcesMask 0 1 false false (.ok r) sent ∧
    getComboResult r 0 ['A', 'A'] = some (some u) ∧ u.equity = some 1 := by
  obtain ⟨rA, hA⟩ := mix_delivers (X := acesPart) (by unfold WfRange acesPart; decide) (by decide +kernel) 1
  obtain ⟨a0, a1⟩ := mix_aces (by decide) hA
  have a2 := (hA.at (wf_put (pre := []) mix_wf (by unfold WfRange acesPart; decide)) fourAces_deck (by unfold CardMask; decide)
    (by decide) (by decide) ((wholeShares_append (pre := []) _ _).1 mix_whole).1).1
  rw [show withRange [] [kingsRange] fourAcesMask 0 allPoints acesPart = 10000 by decide +kernel] at a2
  obtain ⟨r, sent, h⟩ := run_exists' mix_wf fourAces_deck (show CardMask 0 by unfold CardMask; decide) (by decide) (by decide +kernel)
    (by decide +kernel) 1 false
  obtain ⟨u, e, h1, h2, h3⟩ := C99_combo (pre := []) mix_wf mix_distinct fourAces_deck (by unfold CardMask; decide) (by decide) (by decide)
    mix_whole h (c := ⟨12, 12, .pair⟩) (by decide) (by decide)
    (show Delivers ([] ++ (acesPart ++ queensPart).filter (inCombo ⟨12, 12, .pair⟩) :: [kingsRange]) fourAcesMask 0 1 rA from hA) a0
    (by rw [a2]; norm_num)
  rw [show rA.equities[([] : List (List Combo)).length]? = rA.equities[0]? from rfl, a1, Option.some_inj, Option.some_inj] at h3
  exact ⟨r, sent, u, h, h1, h3 ▸ h2⟩

/-- The theorem about the best hand applies to this run. -/
example : ∃ c ∈ acesPart ++ queensPart, ∃ r r' e e', Delivers ([] ++ (acesPart ++ queensPart) :: [kingsRange]) fourAcesMask 0 1 r ∧
    Delivers ([] ++ [c] :: [kingsRange]) fourAcesMask 0 1 r' ∧ r.equities[0]? = some (some e) ∧ r'.equities[0]? = some (some e') ∧
    e ≤ e' := by
  obtain ⟨rA, hA⟩ := mix_delivers (X := acesPart) (by unfold WfRange acesPart; decide) (by decide +kernel) 1
  obtain ⟨rB, hB⟩ := mix_delivers (X := queensPart) (by unfold WfRange queensPart; decide) (by decide +kernel) 1
  obtain ⟨a0, a1⟩ := mix_aces (by decide) hA
  obtain ⟨b0, b1⟩ := mix_queens (by decide) hB
  obtain ⟨r, h⟩ := mix_delivers (X := acesPart ++ queensPart) (by unfold WfRange acesPart queensPart; decide) (by decide +kernel) 1
  obtain ⟨ht, he⟩ := C99_mix (pre := []) (p := 0) mix_wf fourAces_deck (by unfold CardMask; decide) (by decide)
    (by decide) (by decide) (by decide) mix_whole h hA hB (by decide) a0 b0 a1 b1
  have hn : ∀ x : Results, 0 ≤ totalCount 2 x := fun x => by unfold totalCount; positivity
  have h0 : totalCount 2 r ≠ 0 := by
    have := lt_of_le_of_ne (hn rA) (Ne.symm a0)
    have hB := hn rB
    change totalCount 2 r = totalCount 2 rA + totalCount 2 rB at ht
    rw [ht]
    linarith
  obtain ⟨⟨c, hc, hbest⟩, _⟩ := C99_best (pre := []) (p := 0) mix_wf fourAces_deck (by unfold CardMask; decide) (by decide) (by decide)
    mix_whole h h0 (by decide) he
  have hone : ∀ c ∈ acesPart ++ queensPart, WfRange [c] ∧
      ((fromRanges (([[c], kingsRange] : List (List Combo)).map fun h => removeConflictingCombos h fourAcesMask 0)).map
        (·.size)).prod + 2000000 < 2 ^ 64 := by unfold WfRange; decide +kernel
  obtain ⟨r', h'⟩ := mix_delivers (hone c hc).1 (hone c hc).2 1
  obtain ⟨e', he', hle⟩ := hbest 1 r' (by decide) h'
  exact ⟨c, hc, r, r', _, e', h, h', he, he', hle⟩

end Pokers
