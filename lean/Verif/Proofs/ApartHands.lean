import Verif.Props.EndToEnd
import Verif.Proofs.Confined
/-!
# Three ranges whose deals fall apart

Hands of the example of Props/Confined.lean.  On the board Kh Kd 2h 2d 7s player 0 has two kings or a two, player 2 two twos or a king.
-/
namespace Pokers
open CombinedRange Sim Spec

/-- `KK,A2@1,Q2@1,J2@1,T2@1,92@1,82@1,72@1,62@1,52@1,42@1,32@1` -/
def apart0 : List Combo :=
  ((List.range 44).drop 4).flatMap (fun c => [⟨c, 0, 1⟩, ⟨c, 1, 1⟩, ⟨c, 2, 1⟩, ⟨c, 3, 1⟩]) ++
  [⟨45, 44, 100⟩, ⟨46, 44, 100⟩, ⟨46, 45, 100⟩, ⟨47, 44, 100⟩, ⟨47, 45, 100⟩, ⟨47, 46, 100⟩] ++
  [48, 49, 50, 51].flatMap (fun c => [⟨c, 0, 1⟩, ⟨c, 1, 1⟩, ⟨c, 2, 1⟩, ⟨c, 3, 1⟩])

/-- `3s3h,3c3d` -/
def apart1 : List Combo := [⟨5, 4, 100⟩, ⟨7, 6, 100⟩]

/-- `22,AK@1,KQ@1,KJ@1,KT@1,K9@1,K8@1,K7@1,K6@1,K5@1,K4@1,K3@1` -/
def apart2 : List Combo :=
  [⟨1, 0, 100⟩, ⟨2, 0, 100⟩, ⟨2, 1, 100⟩, ⟨3, 0, 100⟩, ⟨3, 1, 100⟩, ⟨3, 2, 100⟩] ++
  ((List.range 11).drop 1).flatMap (fun i => [44, 45, 46, 47].flatMap fun c => [⟨c, 4 * i, 1⟩, ⟨c, 4 * i + 1, 1⟩, ⟨c, 4 * i + 2, 1⟩, ⟨c, 4 * i + 3, 1⟩]) ++
  [48, 49, 50, 51].flatMap (fun c => [⟨c, 44, 1⟩, ⟨c, 45, 1⟩, ⟨c, 46, 1⟩, ⟨c, 47, 1⟩])

def apart : List (List Combo) := [apart0, apart1, apart2]

/-- Kh Kd 2h 2d 7s -/
def apartMask : Nat := 175921861492746

def apartText0 : String := "KK,A2@1,Q2@1,J2@1,T2@1,92@1,82@1,72@1,62@1,52@1,42@1,32@1"
def apartText1 : String := "3s3h,3c3d"
def apartText2 : String := "22,AK@1,KQ@1,KJ@1,KT@1,K9@1,K8@1,K7@1,K6@1,K5@1,K4@1,K3@1"

set_option maxRecDepth 100000

/-- What the loop of the parser reads, before it is sorted. -/
def parsed (text : List Char) : List Combo :=
  match parseLoop (asciiLower text ++ [' ']) ((asciiLower text ++ [' ']).length + 1) 0 [] with
  | .ok l => l
  | .error _ => []

theorem apart_read0 : fromString asciiLower apartText0.toList = .ok apart0 := by
  refine fromString_of_parse (l := parsed apartText0.toList) ?_ ?_ ?_ ?_ ?_ ?_ <;> decide +kernel

theorem apart_read1 : fromString asciiLower apartText1.toList = .ok apart1 := by
  refine fromString_of_parse (l := parsed apartText1.toList) ?_ ?_ ?_ ?_ ?_ ?_ <;> decide +kernel

theorem apart_read2 : fromString asciiLower apartText2.toList = .ok apart2 := by
  refine fromString_of_parse (l := parsed apartText2.toList) ?_ ?_ ?_ ?_ ?_ ?_ <;> decide +kernel

theorem apart_mask : getCardMask asciiLower "KhKd2h2d7s".toList = apartMask := by decide +kernel

theorem apart_cards : maskCards apartMask = [1, 3, 20, 45, 47] := by decide +kernel

theorem apart_wf : ∀ r ∈ apart, WfRange r := by
  have : ∀ r ∈ apart, ∀ c ∈ r, c.c1 < 52 ∧ c.c2 < 52 ∧ c.c1 ≠ c.c2 := by decide +kernel
  exact this

theorem apart_groups :
    (fromRanges (apart.map fun h => removeConflictingCombos h apartMask 0)).map playersOf = [[0, 1], [2]] := by decide +kernel

/-- The cards that go with a two of player 0 or a king of player 2. -/
def apartSides : List Nat := ((List.range 44).drop 4).filter (· ≠ 20) ++ [48, 49, 50, 51]

theorem apart_low0 : ∀ c ∈ (apartSides.drop 0).take 9, best ([1, 3, 20, 45, 47] ++ [c, 0]) < [7, 11, 0] ∧ best ([1, 3, 20, 45, 47] ++ [c, 2]) < [7, 11, 0] := by
  decide +kernel

theorem apart_low1 : ∀ c ∈ (apartSides.drop 9).take 9, best ([1, 3, 20, 45, 47] ++ [c, 0]) < [7, 11, 0] ∧ best ([1, 3, 20, 45, 47] ++ [c, 2]) < [7, 11, 0] := by
  decide +kernel

theorem apart_low2 : ∀ c ∈ (apartSides.drop 18).take 9, best ([1, 3, 20, 45, 47] ++ [c, 0]) < [7, 11, 0] ∧ best ([1, 3, 20, 45, 47] ++ [c, 2]) < [7, 11, 0] := by
  decide +kernel

theorem apart_low3 : ∀ c ∈ (apartSides.drop 27).take 9, best ([1, 3, 20, 45, 47] ++ [c, 0]) < [7, 11, 0] ∧ best ([1, 3, 20, 45, 47] ++ [c, 2]) < [7, 11, 0] := by
  decide +kernel

theorem apart_low4 : ∀ c ∈ (apartSides.drop 36).take 9, best ([1, 3, 20, 45, 47] ++ [c, 0]) < [7, 11, 0] ∧ best ([1, 3, 20, 45, 47] ++ [c, 2]) < [7, 11, 0] := by
  decide +kernel

theorem apart_high0 : ∀ c ∈ (apartSides.drop 0).take 9, c < 44 → [7, 11, 0] ≤ best ([1, 3, 20, 45, 47] ++ [44, c]) ∧ [7, 11, 0] ≤ best ([1, 3, 20, 45, 47] ++ [46, c]) := by
  decide +kernel

theorem apart_high1 : ∀ c ∈ (apartSides.drop 9).take 9, c < 44 → [7, 11, 0] ≤ best ([1, 3, 20, 45, 47] ++ [44, c]) ∧ [7, 11, 0] ≤ best ([1, 3, 20, 45, 47] ++ [46, c]) := by
  decide +kernel

theorem apart_high2 : ∀ c ∈ (apartSides.drop 18).take 9, c < 44 → [7, 11, 0] ≤ best ([1, 3, 20, 45, 47] ++ [44, c]) ∧ [7, 11, 0] ≤ best ([1, 3, 20, 45, 47] ++ [46, c]) := by
  decide +kernel

theorem apart_high3 : ∀ c ∈ (apartSides.drop 27).take 9, c < 44 → [7, 11, 0] ≤ best ([1, 3, 20, 45, 47] ++ [44, c]) ∧ [7, 11, 0] ≤ best ([1, 3, 20, 45, 47] ++ [46, c]) := by
  decide +kernel

theorem apart_high4 : ∀ c ∈ (apartSides.drop 36).take 9, c < 44 → [7, 11, 0] ≤ best ([1, 3, 20, 45, 47] ++ [44, c]) ∧ [7, 11, 0] ≤ best ([1, 3, 20, 45, 47] ++ [46, c]) := by
  decide +kernel

theorem apart_high5 : ∀ c ∈ [48, 49, 50, 51], [7, 11, 0] ≤ best ([1, 3, 20, 45, 47] ++ [c, 44]) ∧ [7, 11, 0] ≤ best ([1, 3, 20, 45, 47] ++ [c, 46]) := by
  decide +kernel

theorem apart_chunks : apartSides = (apartSides.drop 0).take 9 ++ (apartSides.drop 9).take 9 ++ (apartSides.drop 18).take 9 ++ (apartSides.drop 27).take 9 ++
    (apartSides.drop 36).take 9 := by decide +kernel

theorem apart_low : ∀ c ∈ apartSides, best ([1, 3, 20, 45, 47] ++ [c, 0]) < [7, 11, 0] ∧ best ([1, 3, 20, 45, 47] ++ [c, 2]) < [7, 11, 0] := by
  intro c hc
  rw [apart_chunks] at hc
  simp only [List.mem_append] at hc
  rcases hc with (((hc | hc) | hc) | hc) | hc
  · exact apart_low0 c hc
  · exact apart_low1 c hc
  · exact apart_low2 c hc
  · exact apart_low3 c hc
  · exact apart_low4 c hc

theorem apart_high : ∀ c ∈ apartSides, c < 44 →
    [7, 11, 0] ≤ best ([1, 3, 20, 45, 47] ++ [44, c]) ∧ [7, 11, 0] ≤ best ([1, 3, 20, 45, 47] ++ [46, c]) := by
  intro c hc
  rw [apart_chunks] at hc
  simp only [List.mem_append] at hc
  rcases hc with (((hc | hc) | hc) | hc) | hc
  · exact apart_high0 c hc
  · exact apart_high1 c hc
  · exact apart_high2 c hc
  · exact apart_high3 c hc
  · exact apart_high4 c hc

theorem apart_list0 : ∀ c ∈ apart0, c.c1 ∉ [1, 3, 20, 45, 47] → c.c2 ∉ [1, 3, 20, 45, 47] →
    c = ⟨46, 44, 100⟩ ∨ (c.c2 = 0 ∨ c.c2 = 2) ∧ c.w = 1 ∧ c.c1 ∈ apartSides := by decide +kernel

theorem apart_list2 : ∀ c ∈ apart2, c.c1 ∉ [1, 3, 20, 45, 47] → c.c2 ∉ [1, 3, 20, 45, 47] →
    c = ⟨2, 0, 100⟩ ∨ c.w = 1 ∧ ((c.c1 = 44 ∨ c.c1 = 46) ∧ c.c2 ∈ apartSides ∧ c.c2 < 44 ∨ (c.c2 = 44 ∨ c.c2 = 46) ∧ c.c1 ∈ [48, 49, 50, 51]) := by
  decide +kernel

/-- The hands of player 0 that the board leaves: two kings, or a two and at most a full house of twos. -/
theorem apart_hands0 {c : Combo} (h : c ∈ apart0) (h1 : c.c1 ∉ [1, 3, 20, 45, 47]) (h2 : c.c2 ∉ [1, 3, 20, 45, 47]) :
    c = ⟨46, 44, 100⟩ ∨ (c.c2 = 0 ∨ c.c2 = 2) ∧ c.w = 1 ∧ best ([1, 3, 20, 45, 47] ++ [c.c1, c.c2]) < [7, 11, 0] := by
  rcases apart_list0 c h h1 h2 with e | ⟨e1, e2, e3⟩
  · exact Or.inl e
  · refine Or.inr ⟨e1, e2, ?_⟩
    rcases e1 with e | e <;> rw [e]
    · exact (apart_low _ e3).1
    · exact (apart_low _ e3).2

theorem apart_hands1 : ∀ c ∈ apart1, c.w = 100 ∧ best ([1, 3, 20, 45, 47] ++ [c.c1, c.c2]) < [7, 11, 0] := by decide +kernel

/-- The hands of player 2 that the board leaves: two twos, or a king and at least a full house of kings. -/
theorem apart_hands2 {c : Combo} (h : c ∈ apart2) (h1 : c.c1 ∉ [1, 3, 20, 45, 47]) (h2 : c.c2 ∉ [1, 3, 20, 45, 47]) :
    c = ⟨2, 0, 100⟩ ∨ (c.c1 = 44 ∨ c.c1 = 46 ∨ c.c2 = 44 ∨ c.c2 = 46) ∧ c.w = 1 ∧ [7, 11, 0] ≤ best ([1, 3, 20, 45, 47] ++ [c.c1, c.c2]) := by
  rcases apart_list2 c h h1 h2 with e | ⟨e1, ⟨e2, e3, e4⟩ | ⟨e2, e3⟩⟩
  · exact Or.inl e
  · refine Or.inr ⟨by rcases e2 with e | e <;> simp [e], e1, ?_⟩
    rcases e2 with e | e <;> rw [e]
    · exact (apart_high _ e3 e4).1
    · exact (apart_high _ e3 e4).2
  · refine Or.inr ⟨by rcases e2 with e | e <;> simp [e], e1, ?_⟩
    rcases e2 with e | e <;> rw [e]
    · exact (apart_high5 _ e3).1
    · exact (apart_high5 _ e3).2

theorem apart_quads : ∀ c ∈ apart1, best ([1, 3, 20, 45, 47] ++ [c.c1, c.c2]) < best ([1, 3, 20, 45, 47] ++ [46, 44]) := by decide +kernel

theorem apart_quads2 : best ([1, 3, 20, 45, 47] ++ [2, 0]) < best ([1, 3, 20, 45, 47] ++ [46, 44]) := by decide +kernel

/-! ## Counting -/

/-- Sum of the weights of the deals that avoid the cards of the mask, found hand by hand. -/
def weighFrom : Nat → List (List Hole) → Nat
  | _, [] => 1
  | u, r :: rs => (r.map fun h => if (u &&& bitsOf h == 0) = true then h.2.2 * weighFrom (u ||| bitsOf h) rs else 0).sum

theorem weighFrom_eq : ∀ (rs : List (List Hole)) (u : Nat), weighFrom u rs = (((choices rs).filter (maskOk u)).map Spec.dealWeight).sum := by
  intro rs
  induction rs with
  | nil => intro u; rfl
  | cons r rs ih =>
    intro u
    unfold weighFrom choices
    rw [List.filter_flatMap, List.map_flatMap, List.flatMap_def, List.sum_flatten, List.map_map]
    congr 1
    apply List.map_congr_left
    intro h _
    rw [Function.comp_apply]
    rw [List.filter_map, List.map_map, ih]
    split
    · next hu =>
      have : (maskOk u ∘ (h :: ·)) = maskOk (u ||| bitsOf h) := by funext d; simp [maskOk, hu]
      rw [this, ← List.sum_map_mul_left]
      rfl
    · next hu =>
      have : (maskOk u ∘ (h :: ·)) = fun _ => false := by funext d; simp [maskOk, hu]
      rw [this]
      simp

theorem apart_total : weighFrom apartMask (specRanges apart) = 3312000 := by decide +kernel

end Pokers
