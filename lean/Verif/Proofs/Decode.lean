import Verif.Proofs.Deals
import Verif.Props.FastDivide
/-!
The enumeration positions decode to every deal exactly once.
-/
namespace Pokers
open CombinedRange Sim Spec

/-- What a position stands for: mixed-radix digits select one combo of each combined range. -/
def decodePure : List CombinedRange → Nat → Nat → (Nat → Hole) → Multiset (Nat × (Nat → Hole))
  | [], _, u, ph => {(u, ph)}
  | cr :: rest, pos, u, ph =>
    match cr.combos[pos % cr.combos.length]? with
    | none => 0
    | some c =>
      if u &&& c.mask ≠ 0 then 0
      else decodePure rest (pos / cr.combos.length) (u ||| c.mask) (writeHands cr c ph)

theorem bind_mod_div {α : Type} (s : Nat) (hs : 0 < s) (g : Nat → Nat → Multiset α) : ∀ t : Nat,
    ((List.range (s * t) : List Nat) : Multiset Nat).bind (fun p => g (p % s) (p / s)) =
      ((List.range s : List Nat) : Multiset Nat).bind fun r => ((List.range t : List Nat) : Multiset Nat).bind fun q => g r q := by
  intro t
  induction t with
  | zero => simp
  | succ t ih =>
    rw [Nat.mul_succ, range_add_eq, ← Multiset.coe_add, Multiset.add_bind, ih, List.range_succ]
    have h1 : ∀ r : Nat, ((List.range t ++ [t] : List Nat) : Multiset Nat).bind (fun q => g r q) =
        ((List.range t : List Nat) : Multiset Nat).bind (fun q => g r q) + g r t := by
      intro r
      rw [← Multiset.coe_add, Multiset.add_bind]
      congr 1
      rw [Multiset.coe_singleton, Multiset.singleton_bind]
    simp only [h1]
    rw [Multiset.bind_add]
    congr 1
    rw [← Multiset.map_coe, Multiset.bind_map]
    apply Multiset.bind_congr
    intro r hr
    have hr' : r < s := List.mem_range.1 (Multiset.mem_coe.1 hr)
    rw [Nat.mul_add_mod, Nat.mod_eq_of_lt hr', Nat.mul_add_div hs, Nat.div_eq_of_lt hr', Nat.add_zero]

theorem bind_getElem? {α β : Type} (l : List α) (g : Option α → Multiset β) :
    ((List.range l.length : List Nat) : Multiset Nat).bind (fun r => g l[r]?) = (l : Multiset α).bind fun c => g (some c) := by
  have h : (List.range l.length).map (fun r => l[r]?) = l.map some := by
    apply List.ext_getElem
    · simp
    · intro i h1 h2
      simp at h1 ⊢
  have h1 : ((List.range l.length : List Nat) : Multiset Nat).bind (fun r => g l[r]?) =
      (((List.range l.length).map (fun r => l[r]?) : List (Option α)) : Multiset (Option α)).bind g := by
    rw [← Multiset.map_coe, Multiset.bind_map]
  rw [h1, h, ← Multiset.map_coe, Multiset.bind_map]

/-- The number of positions. -/
def sizeProd (crs : List CombinedRange) : Nat := (crs.map fun c => c.combos.length).prod

theorem decodePure_all : ∀ (crs : List CombinedRange) (u : Nat) (ph : Nat → Hole),
    ((List.range (sizeProd crs) : List Nat) : Multiset Nat).bind (fun pos => decodePure crs pos u ph) = dealsOf crs u ph := by
  intro crs
  induction crs with
  | nil =>
    intro u ph
    simp [sizeProd, decodePure, dealsOf]
  | cons cr rest ih =>
    intro u ph
    have hp : sizeProd (cr :: rest) = cr.combos.length * sizeProd rest := by simp [sizeProd]
    rw [hp, dealsOf]
    by_cases hs : cr.combos.length = 0
    · have : cr.combos = [] := List.length_eq_zero_iff.1 hs
      rw [this]; simp
    · have h1 := bind_mod_div cr.combos.length (Nat.pos_of_ne_zero hs) (fun r q =>
        match cr.combos[r]? with
        | none => 0
        | some c =>
          if u &&& c.mask ≠ 0 then 0
          else decodePure rest q (u ||| c.mask) (writeHands cr c ph)) (sizeProd rest)
      refine Eq.trans h1 ?_
      have h2 := bind_getElem? cr.combos (fun o => ((List.range (sizeProd rest) : List Nat) : Multiset Nat).bind fun q =>
        match o with
        | none => 0
        | some c =>
          if u &&& c.mask ≠ 0 then 0
          else decodePure rest q (u ||| c.mask) (writeHands cr c ph))
      refine Eq.trans h2 ?_
      apply Multiset.bind_congr
      intro c _
      by_cases hc : u &&& c.mask = 0
      · simp only [hc, ne_eq, not_true_eq_false, if_false]
        exact ih _ _
      · simp only [hc, ne_eq, not_false_eq_true, if_true]
        exact Multiset.bind_zero _

/-- The combos of a combined range are counted by its field `size`. -/
def SizeOk (cr : CombinedRange) : Prop := cr.size = cr.combos.length

theorem singles_size : ∀ (ranges : List (List Combo)) (k : Nat), ∀ cr ∈ singles k ranges, SizeOk cr := by
  intro ranges
  induction ranges with
  | nil => intro k cr h; simp [singles] at h
  | cons r rs ih =>
    intro k cr h
    rcases List.mem_cons.1 h with rfl | h
    · rfl
    · exact ih _ _ h

theorem fromRanges_size (ranges : List (List Combo)) : ∀ cr ∈ fromRanges ranges, SizeOk cr := by
  rw [fromRanges_eq]
  apply combineLoop_ind (fun crs => ∀ cr ∈ crs, SizeOk cr)
  · intro xs ys h hx cr hcr; exact hx cr (h.mem_iff.2 hcr)
  · intro a b rest h cr hcr
    rcases List.mem_cons.1 hcr with rfl | hcr
    · rfl
    · exact h cr (by simp [hcr])
  · exact singles_size _ _

end Pokers

namespace Pokers
open CombinedRange Sim Spec

theorem mapM_dividers (crs : List CombinedRange) : ∀ ds, crs.mapM (fun c => DividerU64.divideBy c.size) = some ds →
    List.Forall₂ (fun c d => DividerU64.divideBy c.size = some d) crs ds := by
  induction crs with
  | nil => intro ds h; simp at h; subst h; exact List.Forall₂.nil
  | cons c crs ih =>
    intro ds h
    rw [List.mapM_cons] at h
    cases h1 : DividerU64.divideBy c.size with
    | none => simp [h1] at h
    | some d =>
      cases h2 : crs.mapM (fun c => DividerU64.divideBy c.size) with
      | none => simp [h1, h2] at h
      | some ds' =>
        simp only [h1, h2, Option.bind_eq_bind, Option.bind_some, pure, Option.some.injEq] at h
        subst h
        exact List.Forall₂.cons h1 (ih _ h2)

theorem divider_exact {d : Nat} (h0 : 0 < d) (hd : d < 2 ^ 64) :
    ∃ v, DividerU64.divideBy d = some v ∧ ∀ n < 2 ^ 64, v.divide n = some (n / d) := by
  cases h : DividerU64.divideBy d with
  | none =>
    have := C25_divide_exact h0 hd (n := 0) (by decide)
    rw [h] at this
    simp at this
  | some v =>
    refine ⟨v, rfl, fun n hn => ?_⟩
    have := C25_divide_exact h0 hd hn
    rw [h] at this
    exact this

theorem dividers_exist (crs : List CombinedRange) (h : ∀ c ∈ crs, 0 < c.size ∧ c.size < 2 ^ 64) :
    ∃ ds, crs.mapM (fun c => DividerU64.divideBy c.size) = some ds := by
  induction crs with
  | nil => exact ⟨[], rfl⟩
  | cons c crs ih =>
    obtain ⟨ds, hds⟩ := ih (fun x hx => h x (by simp [hx]))
    obtain ⟨d, hd, _⟩ := divider_exact (h c (by simp)).1 (h c (by simp)).2
    exact ⟨d :: ds, by rw [List.mapM_cons, hd, hds]; rfl⟩

/-- A decoded position as a multiset with at most one element. -/
def optM {α : Type} : Option α → Multiset α
  | none => 0
  | some x => {x}

theorem decodeLoop_eq {crs : List CombinedRange} {ds : List DividerU64}
    (hd : List.Forall₂ (fun c d => DividerU64.divideBy c.size = some d) crs ds)
    (hs : ∀ c ∈ crs, SizeOk c ∧ 0 < c.size ∧ c.size < 2 ^ 64) : ∀ (pos u : Nat) (ph : Nat → Hole), pos < 2 ^ 64 →
    ∃ o, decodeLoop (crs.zip ds) pos u ph = some o ∧ optM o = decodePure crs pos u ph := by
  induction hd with
  | nil => intro pos u ph _; exact ⟨some (u, ph), rfl, rfl⟩
  | @cons c d crs ds hcd hrest ih =>
    intro pos u ph hpos
    obtain ⟨hok, h0, h64⟩ := hs c (by simp)
    obtain ⟨d', hd', hdiv⟩ := divider_exact h0 h64
    have : d' = d := by rw [hcd] at hd'; exact (Option.some.inj hd').symm
    subst this
    have hq : pos / c.size * c.size ≤ pos := Nat.div_mul_le_self _ _
    have hlt : pos % c.combos.length < c.combos.length := Nat.mod_lt _ (by rw [← hok]; exact h0)
    have hsub : pos - pos / c.size * c.size = pos % c.combos.length := by
      have := Nat.div_add_mod pos c.size
      rw [Nat.mul_comm] at this
      rw [hok] at this ⊢
      omega
    rw [List.zip_cons_cons, decodeLoop, hdiv pos hpos, decodePure, List.getElem?_eq_getElem hlt]
    simp only [Option.bind_eq_bind, Option.bind_some, fits, subC]
    rw [if_pos (by omega)]
    simp only [Option.bind_some]
    rw [if_pos hq]
    simp only [Option.bind_some]
    rw [hsub, List.getElem?_eq_getElem hlt]
    simp only [Option.bind_some]
    split
    · exact ⟨none, rfl, rfl⟩
    · have hpe : pos / c.size = pos / c.combos.length := by rw [hok]
      rw [hpe]
      exact ih (fun x hx => hs x (by simp [hx])) _ _ _ (Nat.lt_of_le_of_lt (Nat.div_le_self _ _) hpos)

theorem preflop_foldlM (crs : List CombinedRange) : ∀ (a t : Nat),
    crs.foldlM (fun count c => fits 64 (count * c.size)) a = some t → t = a * (crs.map (·.size)).prod ∧ (a < 2 ^ 64 → t < 2 ^ 64) := by
  induction crs with
  | nil => intro a t h; simp at h; subst h; simp
  | cons c crs ih =>
    intro a t h
    rw [List.foldlM_cons] at h
    unfold fits at h
    by_cases hlt : a * c.size < 2 ^ 64
    · rw [if_pos hlt] at h
      have := ih (a * c.size) t h
      refine ⟨by rw [this.1, List.map_cons, List.prod_cons, Nat.mul_assoc], fun _ => this.2 hlt⟩
    · rw [if_neg hlt] at h
      simp at h

theorem preflop_some (crs : List CombinedRange) (hpos : ∀ c ∈ crs, 0 < c.size) : ∀ (a : Nat), a * (crs.map (·.size)).prod < 2 ^ 64 → 
    crs.foldlM (fun count c => fits 64 (count * c.size)) a = some (a * (crs.map (·.size)).prod) := by
  induction crs with
  | nil => intro a h; simp
  | cons c crs ih =>
    intro a h
    rw [List.map_cons, List.prod_cons, ← Nat.mul_assoc] at h ⊢
    have hp : 0 < (crs.map (·.size)).prod := by
      clear ih h
      induction crs with
      | nil => simp
      | cons x xs ih2 => 
        rw [List.map_cons, List.prod_cons]
        exact Nat.mul_pos (hpos x (by simp)) (ih2 (fun y hy => hpos y (by simp at hy ⊢; tauto)))
    have hlt : a * c.size < 2 ^ 64 := Nat.lt_of_le_of_lt (Nat.le_mul_of_pos_right _ hp) h
    rw [List.foldlM_cons]
    unfold fits
    rw [if_pos hlt]
    exact ih (fun x hx => hpos x (by simp [hx])) _ h

theorem sizeProd_eq (crs : List CombinedRange) (h : ∀ c ∈ crs, SizeOk c) : (crs.map (·.size)).prod = sizeProd crs := by
  rw [sizeProd]
  congr 1
  apply List.map_congr_left
  intro c hc
  exact h c hc

end Pokers
