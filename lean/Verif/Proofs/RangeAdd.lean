import Verif.Proofs.RangeSort
import Verif.Spec.Range
/-! What the functions that add combos add. -/
namespace Pokers
open Spec

/-- The combo pushed by `add_combo`, if any. -/
def oneCombo (c1 c2 w : Nat) : List Combo := addCombo [] c1 c2 w

theorem addCombo_eq (hands : List Combo) (c1 c2 w : Nat) : addCombo hands c1 c2 w = hands ++ oneCombo c1 c2 w := by
  unfold oneCombo addCombo
  split_ifs <;> simp

theorem mem_oneCombo {c : Combo} {x y w : Nat} : c ∈ oneCombo x y w ↔
    c.w = w ∧ c.c2 < c.c1 ∧ c.c1 < 52 ∧ ((x = c.c1 ∧ y = c.c2) ∨ (x = c.c2 ∧ y = c.c1)) := by
  obtain ⟨a, b, v⟩ := c
  unfold oneCombo addCombo
  dsimp only
  simp only [and_three, shr_two]
  split_ifs <;> simp only [List.nil_append, List.mem_singleton, List.not_mem_nil, Combo.mk.injEq] <;>
    constructor <;> intro h <;> first | exact h.elim | omega

theorem foldl_append {α : Type} (l : List α) (f : List Combo → α → List Combo) (g : α → List Combo)
    (h : ∀ hands x, f hands x = hands ++ g x) (hands : List Combo) : l.foldl f hands = hands ++ l.flatMap g := by
  induction l generalizing hands with
  | nil => simp
  | cons x l ih => rw [List.foldl_cons, ih, h, List.flatMap_cons, List.append_assoc]

/-- The combos added by `add_combos`. -/
def theCombos (r1 r2 : Nat) (s o : Bool) (w : Nat) : List Combo := addCombos [] r1 r2 s o w

theorem addCombos_explicit (hands : List Combo) (r1 r2 : Nat) (s o : Bool) (w : Nat) :
    addCombos hands r1 r2 s o w = hands ++
      ((if s = true ∧ r1 ≠ r2 then (List.range 4).flatMap (fun x => oneCombo (4 * r1 + x) (4 * r2 + x) w) else []) ++
       (if o = true then (List.range 4).flatMap (fun x => (List.range' (x + 1) (4 - (x + 1))).flatMap (fun y =>
          oneCombo (4 * r1 + x) (4 * r2 + y) w ++ (if r1 ≠ r2 then oneCombo (4 * r1 + y) (4 * r2 + x) w else []))) else [])) := by
  unfold addCombos
  have outer : ∀ hands : List Combo, (List.range 4).foldl (fun hands suit => addCombo hands (4 * r1 + suit) (4 * r2 + suit) w) hands =
      hands ++ (List.range 4).flatMap (fun x => oneCombo (4 * r1 + x) (4 * r2 + x) w) :=
    foldl_append _ _ _ (fun hands x => addCombo_eq hands _ _ w)
  have inner : ∀ (hands : List Combo) (x : Nat),
      (List.range' (x + 1) (4 - (x + 1))).foldl (fun hands suit2 =>
        if r1 ≠ r2 then addCombo (addCombo hands (4 * r1 + x) (4 * r2 + suit2) w) (4 * r1 + suit2) (4 * r2 + x) w
        else addCombo hands (4 * r1 + x) (4 * r2 + suit2) w) hands = hands ++
      (List.range' (x + 1) (4 - (x + 1))).flatMap (fun y =>
          oneCombo (4 * r1 + x) (4 * r2 + y) w ++ (if r1 ≠ r2 then oneCombo (4 * r1 + y) (4 * r2 + x) w else [])) := by
    intro hands x
    apply foldl_append
    intro hands y
    split_ifs
    · rw [addCombo_eq, addCombo_eq, List.append_assoc]
    · rw [addCombo_eq, List.append_nil]
  simp only [outer]
  rw [foldl_append _ _ _ inner]
  split_ifs <;> simp only [List.append_assoc, List.append_nil, List.nil_append]

theorem addCombos_eq (hands : List Combo) (r1 r2 : Nat) (s o : Bool) (w : Nat) :
    addCombos hands r1 r2 s o w = hands ++ theCombos r1 r2 s o w := by
  unfold theCombos
  rw [addCombos_explicit, addCombos_explicit, List.nil_append]

/-- The suffix for the two flags. -/
def sfx : Suffix → Bool × Bool
  | .any => (true, true)
  | .suited => (true, false)
  | .offsuit => (false, true)

theorem mem_theCombos {c : Combo} {r1 r2 : Nat} {s o : Bool} {w : Nat} :
    c ∈ theCombos r1 r2 s o w ↔ c.w = w ∧ c.c2 < c.c1 ∧ c.c1 < 52 ∧
      ((c.c1 / 4 = r1 ∧ c.c2 / 4 = r2) ∨ (c.c1 / 4 = r2 ∧ c.c2 / 4 = r1)) ∧
      ((s = true ∧ c.c1 % 4 = c.c2 % 4) ∨ (o = true ∧ c.c1 % 4 ≠ c.c2 % 4)) := by
  unfold theCombos
  rw [addCombos_explicit, List.nil_append, List.mem_append]
  obtain ⟨a, b, v⟩ := c
  have m1 : (⟨a, b, v⟩ : Combo) ∈ (if s = true ∧ r1 ≠ r2 then
      (List.range 4).flatMap (fun x => oneCombo (4 * r1 + x) (4 * r2 + x) w) else []) ↔
      s = true ∧ r1 ≠ r2 ∧ ∃ x, x < 4 ∧ v = w ∧ b < a ∧ a < 52 ∧
        ((4 * r1 + x = a ∧ 4 * r2 + x = b) ∨ (4 * r1 + x = b ∧ 4 * r2 + x = a)) := by
    split_ifs with h
    · simp only [List.mem_flatMap, List.mem_range, mem_oneCombo]
      exact ⟨fun ⟨x, hx⟩ => ⟨h.1, h.2, x, hx⟩, fun ⟨_, _, x, hx⟩ => ⟨x, hx⟩⟩
    · simp only [List.not_mem_nil, false_iff]
      exact fun ⟨h1, h2, _⟩ => h ⟨h1, h2⟩
  have m2 : (⟨a, b, v⟩ : Combo) ∈ (if o = true then (List.range 4).flatMap (fun x =>
        (List.range' (x + 1) (4 - (x + 1))).flatMap (fun y =>
          oneCombo (4 * r1 + x) (4 * r2 + y) w ++ (if r1 ≠ r2 then oneCombo (4 * r1 + y) (4 * r2 + x) w else []))) else []) ↔
      o = true ∧ ∃ x y, x < y ∧ y < 4 ∧ v = w ∧ b < a ∧ a < 52 ∧
        (((4 * r1 + x = a ∧ 4 * r2 + y = b) ∨ (4 * r1 + x = b ∧ 4 * r2 + y = a)) ∨
         (r1 ≠ r2 ∧ ((4 * r1 + y = a ∧ 4 * r2 + x = b) ∨ (4 * r1 + y = b ∧ 4 * r2 + x = a)))) := by
    split_ifs with ho hr
    · simp only [List.mem_flatMap, List.mem_range, List.mem_range'_1, List.mem_append, mem_oneCombo, ho, true_and]
      constructor
      · rintro ⟨x, hx, y, hy, h | h⟩
        · exact ⟨x, y, by omega, by omega, h.1, h.2.1, h.2.2.1, Or.inl h.2.2.2⟩
        · exact ⟨x, y, by omega, by omega, h.1, h.2.1, h.2.2.1, Or.inr ⟨hr, h.2.2.2⟩⟩
      · rintro ⟨x, y, hxy, hy, hv, hba, ha, h | h⟩
        · exact ⟨x, by omega, y, by omega, Or.inl ⟨hv, hba, ha, h⟩⟩
        · exact ⟨x, by omega, y, by omega, Or.inr ⟨hv, hba, ha, h.2⟩⟩
    · simp only [List.mem_flatMap, List.mem_range, List.mem_range'_1, List.mem_append, mem_oneCombo, ho, true_and, List.not_mem_nil,
        or_false]
      constructor
      · rintro ⟨x, hx, y, hy, h⟩
        exact ⟨x, y, by omega, by omega, h.1, h.2.1, h.2.2.1, Or.inl h.2.2.2⟩
      · rintro ⟨x, y, hxy, hy, hv, hba, ha, h | h⟩
        · exact ⟨x, by omega, y, by omega, hv, hba, ha, h⟩
        · exact absurd h.1 hr
    · simp only [List.not_mem_nil, false_iff]
      exact fun h => ho h.1
  rw [m1, m2]
  simp only
  constructor
  · rintro (⟨hs, hr, x, hx, hv, hba, ha, h⟩ | ⟨ho, x, y, hxy, hy, hv, hba, ha, h⟩)
    · refine ⟨hv, hba, ha, by omega, Or.inl ⟨hs, by omega⟩⟩
    · refine ⟨hv, hba, ha, by omega, Or.inr ⟨ho, by omega⟩⟩
  · rintro ⟨hv, hba, ha, hr, ⟨hs, he⟩ | ⟨ho, hne⟩⟩
    · exact Or.inl ⟨hs, by omega, a % 4, by omega, hv, hba, ha, by omega⟩
    · right
      refine ⟨ho, ?_⟩
      rcases Nat.lt_or_ge (a % 4) (b % 4) with hlt | hge
      · exact ⟨a % 4, b % 4, hlt, by omega, hv, hba, ha, by omega⟩
      · exact ⟨b % 4, a % 4, by omega, by omega, hv, hba, ha, by omega⟩

theorem sfx_fits (s : Suffix) (a b : Nat) : s.fits a b ↔
    (((sfx s).1 = true ∧ a % 4 = b % 4) ∨ ((sfx s).2 = true ∧ a % 4 ≠ b % 4)) := by
  cases s
  · simp only [sfx, Suffix.fits, true_and, true_iff]; omega
  · simp [sfx, Suffix.fits, Spec.suit]
  · simp [sfx, Suffix.fits, Spec.suit]

theorem mem_theCombos_sfx {c : Combo} {r1 r2 : Nat} {s : Suffix} {w : Nat} :
    c ∈ theCombos r1 r2 (sfx s).1 (sfx s).2 w ↔ c.w = w ∧ c.c2 < c.c1 ∧ c.c1 < 52 ∧ hasRanks r1 r2 s c.c1 c.c2 := by
  rw [mem_theCombos, hasRanks, sfx_fits]
  simp only [Spec.rank]

theorem addCombosPlus_eq (hands : List Combo) (r1 r2 : Nat) (s o : Bool) (w : Nat) :
    addCombosPlus hands r1 r2 s o w = hands ++
      (if r1 = r2 then (rangeEx r1 13).flatMap (fun r => theCombos r r s o w)
       else (rangeEx r2 r1).flatMap (fun r => theCombos r1 r s o w)) := by
  unfold addCombosPlus
  split_ifs
  · exact foldl_append _ _ _ (by intros; apply addCombos_eq) hands
  · exact foldl_append _ _ _ (by intros; apply addCombos_eq) hands

/-- The combos added by `add_combos_dash`. -/
def dashCombos (rank1 rank2 rank3 rank4 : Nat) (s o : Bool) (w : Nat) : List Combo :=
  if rank1 = rank2 then (rangeIn rank3 rank1).flatMap (fun r => theCombos r r s o w)
  else if rank1 = rank3 then (rangeIn (min rank2 rank4) (max rank2 rank4)).flatMap (fun r => theCombos rank1 r s o w)
  else if rank1 = rank4 then (rangeIn (min rank2 rank3) (max rank2 rank3)).flatMap (fun r => theCombos rank1 r s o w)
  else if rank2 = rank3 then (rangeIn (min rank1 rank4) (max rank1 rank4)).flatMap (fun r => theCombos rank2 r s o w)
  else if rank2 = rank4 then (rangeIn (min rank1 rank3) (max rank1 rank3)).flatMap (fun r => theCombos rank2 r s o w)
  else []

theorem addCombosDash_eq (hands : List Combo) (rank1 rank2 rank3 rank4 : Nat) (s o : Bool) (w : Nat) :
    addCombosDash hands rank1 rank2 rank3 rank4 s o w = hands ++ dashCombos rank1 rank2 rank3 rank4 s o w := by
  have key : ∀ x y c : Nat,
      (if x > y then (rangeIn y x).foldl (fun hands r => addCombos hands c r s o w) hands
        else (rangeIn x y).foldl (fun hands r => addCombos hands c r s o w) hands) =
      hands ++ (rangeIn (min x y) (max x y)).flatMap (fun r => theCombos c r s o w) := by
    intro x y c
    split_ifs with h
    · rw [min_eq_right (by omega), max_eq_left (by omega)]
      exact foldl_append _ _ _ (by intros; apply addCombos_eq) hands
    · rw [min_eq_left (by omega), max_eq_right (by omega)]
      exact foldl_append _ _ _ (by intros; apply addCombos_eq) hands
  unfold addCombosDash dashCombos
  rw [key, key, key, key]
  rw [foldl_append (rangeIn rank3 rank1) _ (fun r => theCombos r r s o w) (by intros; apply addCombos_eq) hands]
  split_ifs <;> simp

/-- The combos of a token. -/
def shapeCombos (w : Nat) : Shape → List Combo
  | .cards c d => oneCombo c d w
  | .plain x y s => theCombos x y (sfx s).1 (sfx s).2 w
  | .plus x y s => if x = y then (rangeEx x 13).flatMap (fun r => theCombos r r (sfx s).1 (sfx s).2 w)
      else (rangeEx y x).flatMap (fun r => theCombos x r (sfx s).1 (sfx s).2 w)
  | .dash x y z t s _ => dashCombos x y z t (sfx s).1 (sfx s).2 w

theorem mem_rangeEx {a b r : Nat} : r ∈ rangeEx a b ↔ a ≤ r ∧ r < b := by
  unfold rangeEx; rw [List.mem_range'_1]; omega

theorem mem_rangeIn {a b r : Nat} : r ∈ rangeIn a b ↔ a ≤ r ∧ r ≤ b := by
  unfold rangeIn; rw [List.mem_range'_1]; omega

/-- A token adds exactly the hands it denotes, with its weight, higher card first. -/
theorem mem_shapeCombos {c : Combo} {w : Nat} {sh : Shape} (hv : sh.Valid) :
    c ∈ shapeCombos w sh ↔ c.w = w ∧ c.c2 < c.c1 ∧ c.c1 < 52 ∧ sh.denotes c.c1 c.c2 := by
  have flat : ∀ (l : List Nat) (f : Nat → List Combo), c ∈ l.flatMap f ↔ ∃ r, r ∈ l ∧ c ∈ f r := by
    intro l f; rw [List.mem_flatMap]
  cases sh with
  | cards x y =>
    simp only [shapeCombos, Shape.denotes, mem_oneCombo]
    constructor <;> rintro ⟨h1, h2, h3, h⟩ <;> exact ⟨h1, h2, h3, by omega⟩
  | plain x y s =>
    obtain ⟨hx, hy⟩ := hv
    simp only [shapeCombos, Shape.denotes, mem_theCombos_sfx]
  | plus x y s =>
    obtain ⟨hx, hy⟩ := hv
    simp only [shapeCombos, Shape.denotes]
    split_ifs with h
    · simp only [flat, mem_rangeEx]
      constructor
      · rintro ⟨r, hr, hc⟩
        rw [mem_theCombos_sfx] at hc
        exact ⟨hc.1, hc.2.1, hc.2.2.1, Or.inl ⟨h, r, hr.1, hr.2, hc.2.2.2⟩⟩
      · rintro ⟨h1, h2, h3, ⟨_, r, hr1, hr2, hr⟩ | ⟨hne, _⟩⟩
        · exact ⟨r, ⟨hr1, hr2⟩, mem_theCombos_sfx.2 ⟨h1, h2, h3, hr⟩⟩
        · exact absurd h hne
    · simp only [flat, mem_rangeEx]
      constructor
      · rintro ⟨r, hr, hc⟩
        rw [mem_theCombos_sfx] at hc
        exact ⟨hc.1, hc.2.1, hc.2.2.1, Or.inr ⟨h, r, hr.1, hr.2, hc.2.2.2⟩⟩
      · rintro ⟨h1, h2, h3, ⟨he, _⟩ | ⟨_, r, hr1, hr2, hr⟩⟩
        · exact absurd he h
        · exact ⟨r, ⟨hr1, hr2⟩, mem_theCombos_sfx.2 ⟨h1, h2, h3, hr⟩⟩
  | dash x y z t s again =>
    obtain ⟨hx, hy, hz, ht, hsh⟩ := hv
    simp only [shapeCombos, Shape.denotes, dashCombos]
    split_ifs with h h1 h2 h3 h4
    · simp only [flat, mem_rangeIn]
      constructor
      · rintro ⟨r, hr, hc⟩
        rw [mem_theCombos_sfx] at hc
        exact ⟨hc.1, hc.2.1, hc.2.2.1, Or.inl ⟨h, r, hr.1, hr.2, hc.2.2.2⟩⟩
      · rintro ⟨h1, h2, h3, ⟨_, r, hr1, hr2, hr⟩ | ⟨hne, _⟩⟩
        · exact ⟨r, ⟨hr1, hr2⟩, mem_theCombos_sfx.2 ⟨h1, h2, h3, hr⟩⟩
        · exact absurd h hne
    all_goals
      simp only [flat, mem_rangeIn, List.not_mem_nil, false_iff]
    · constructor
      · rintro ⟨r, hr, hc⟩
        rw [mem_theCombos_sfx] at hc
        exact ⟨hc.1, hc.2.1, hc.2.2.1, Or.inr ⟨h, x, y, t, r, by simp, by simp [h1], hr.1, hr.2, hc.2.2.2⟩⟩
      · rintro ⟨g1, g2, g3, ⟨he, _⟩ | ⟨_, c', p, q, r, hcp, hcq, hr1, hr2, hr⟩⟩
        · exact absurd he h
        · rcases hcp with ⟨rfl, rfl⟩ | ⟨rfl, rfl⟩
          · have : q = t := by omega
            subst this
            exact ⟨r, ⟨hr1, hr2⟩, mem_theCombos_sfx.2 ⟨g1, g2, g3, hr⟩⟩
          · have : c' = t ∧ q = p := by omega
            obtain ⟨rfl, rfl⟩ := this
            have : r = q := by omega
            subst this
            refine ⟨c', by omega, mem_theCombos_sfx.2 ⟨g1, g2, g3, ?_⟩⟩
            unfold hasRanks at hr ⊢
            exact ⟨by omega, hr.2⟩
    · constructor
      · rintro ⟨r, hr, hc⟩
        rw [mem_theCombos_sfx] at hc
        exact ⟨hc.1, hc.2.1, hc.2.2.1, Or.inr ⟨h, x, y, z, r, by simp, by simp [h2], hr.1, hr.2, hc.2.2.2⟩⟩
      · rintro ⟨g1, g2, g3, ⟨he, _⟩ | ⟨_, c', p, q, r, hcp, hcq, hr1, hr2, hr⟩⟩
        · exact absurd he h
        · rcases hcp with ⟨rfl, rfl⟩ | ⟨rfl, rfl⟩
          · have : q = z := by omega
            subst this
            exact ⟨r, ⟨hr1, hr2⟩, mem_theCombos_sfx.2 ⟨g1, g2, g3, hr⟩⟩
          · have : c' = z ∧ q = p := by omega
            obtain ⟨rfl, rfl⟩ := this
            have : r = q := by omega
            subst this
            refine ⟨c', by omega, mem_theCombos_sfx.2 ⟨g1, g2, g3, ?_⟩⟩
            unfold hasRanks at hr ⊢
            exact ⟨by omega, hr.2⟩
    · constructor
      · rintro ⟨r, hr, hc⟩
        rw [mem_theCombos_sfx] at hc
        exact ⟨hc.1, hc.2.1, hc.2.2.1, Or.inr ⟨h, y, x, t, r, by simp, by simp [h3], hr.1, hr.2, hc.2.2.2⟩⟩
      · rintro ⟨g1, g2, g3, ⟨he, _⟩ | ⟨_, c', p, q, r, hcp, hcq, hr1, hr2, hr⟩⟩
        · exact absurd he h
        · rcases hcp with ⟨rfl, rfl⟩ | ⟨rfl, rfl⟩
          · omega
          · have : q = t := by omega
            subst this
            exact ⟨r, ⟨hr1, hr2⟩, mem_theCombos_sfx.2 ⟨g1, g2, g3, hr⟩⟩
    · constructor
      · rintro ⟨r, hr, hc⟩
        rw [mem_theCombos_sfx] at hc
        exact ⟨hc.1, hc.2.1, hc.2.2.1, Or.inr ⟨h, y, x, z, r, by simp, by simp [h4], hr.1, hr.2, hc.2.2.2⟩⟩
      · rintro ⟨g1, g2, g3, ⟨he, _⟩ | ⟨_, c', p, q, r, hcp, hcq, hr1, hr2, hr⟩⟩
        · exact absurd he h
        · rcases hcp with ⟨rfl, rfl⟩ | ⟨rfl, rfl⟩
          · omega
          · have : q = z := by omega
            subst this
            exact ⟨r, ⟨hr1, hr2⟩, mem_theCombos_sfx.2 ⟨g1, g2, g3, hr⟩⟩
    · omega

end Pokers
