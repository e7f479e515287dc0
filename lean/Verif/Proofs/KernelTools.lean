import Verif.Tables.Lookup
import Verif.Tables.FlushLookup
import Verif.Tables.HashOffsets
import Verif.Proofs.ScoreCode
import Verif.Model.Constants
import Verif.Spec.Poker
import Mathlib.Tactic.NormNum
import Mathlib.Tactic.Ring
/-!
Evaluation-friendly versions of the table lookups and a generic "for all rank multisets" checker.
They are used only inside proofs: kernel computation establishes a Boolean, the lemmas here turn it into a `∀`.
The definitions use recursors directly, which the kernel evaluates with much less overhead than compiled matches.
-/
namespace Pokers.Kernel

/-- `if b then t else f`, as a recursor application. -/
abbrev bif' {α : Type} (b : Bool) (t f : α) : α := @Bool.rec (fun _ => α) f t b

/-- Makes the kernel evaluate `n` to a literal before continuing. -/
abbrev force {α : Type} (n : Nat) (f : Nat → α) : α := @Nat.rec (fun _ => α) (f 0) (fun k _ => f k) (Nat.succ n)

theorem force_eq {α : Type} (n : Nat) (f : Nat → α) : force n f = f n := rfl

theorem bif'_true {α : Type} (t f : α) : bif' true t f = t := rfl
theorem bif'_false {α : Type} (t f : α) : bif' false t f = f := rfl
theorem bif'_and (b c : Bool) : bif' b c false = (b && c) := by cases b <;> rfl
theorem bif'_imp (b c : Bool) : (bif' b c true = true) ↔ (b = true → c = true) := by cases b <;> simp

noncomputable def cget (t : Chunks) : Nat → Nat :=
  @Chunks.rec (fun _ => Nat → Nat) (fun n _ => n) (fun m _ _ l r i => bif' (Nat.ble m i) (r i) (l i)) t

theorem cget_eq (t : Chunks) (i : Nat) : cget t i = t.get i := by
  induction t with
  | leaf n => rfl
  | node m l r ihl ihr =>
    show bif' (Nat.ble m i) (cget r i) (cget l i) = cond (Nat.blt i m) (l.get i) (r.get i)
    rw [ihl, ihr]
    by_cases h : m ≤ i
    · rw [Nat.ble_eq_true_of_le h, show Nat.blt i m = false by
        rw [← Bool.not_eq_true]; simpa [Nat.blt_eq] using h]; rfl
    · rw [show Nat.ble m i = false by rw [← Bool.not_eq_true]; simpa [Nat.ble_eq] using h,
        show Nat.blt i m = true by simpa [Nat.blt_eq] using h]; rfl

def lookupChunks : Chunks := LOOKUP.chunks
def offsetChunks : Chunks := PERF_HASH_OFFSETS.chunks
def flushChunks : Chunks := LOOKUP_FLUSH.chunks
def codeChunks : Chunks := scoreCode.chunks

/-- position in `LOOKUP` for a rank key -/
noncomputable def fastHash (key : Nat) : Nat :=
  Nat.land (Nat.add key (Nat.land (Nat.shiftRight (cget offsetChunks (Nat.shiftRight (Nat.shiftRight key 12) 6))
    (Nat.mul 32 (Nat.land (Nat.shiftRight key 12) 63))) 0xffffffff)) 0xffffffff

noncomputable def fastLookup (key : Nat) : Nat :=
  force (fastHash key) fun h =>
  Nat.land (Nat.shiftRight (cget lookupChunks (Nat.shiftRight h 7)) (Nat.mul 16 (Nat.land h 127))) 0xffff

noncomputable def fastFlush (m : Nat) : Nat :=
  Nat.land (Nat.shiftRight (cget flushChunks (Nat.shiftRight m 7)) (Nat.mul 16 (Nat.land m 127))) 0xffff

noncomputable def fastCode (s : Nat) : Nat :=
  Nat.land (Nat.shiftRight (cget codeChunks (Nat.shiftRight s 6)) (Nat.mul 24 (Nat.land s 63))) 0xffffff

theorem land_mask (x k : Nat) : Nat.land x (2 ^ k - 1) = x % 2 ^ k := Nat.and_two_pow_sub_one_eq_mod x k

theorem fastHash_eq (key : Nat) :
    fastHash key = (key + PERF_HASH_OFFSETS.get (key >>> 12)) % 2 ^ 32 := by
  unfold fastHash
  rw [show (0xffffffff : Nat) = 2 ^ 32 - 1 by norm_num, land_mask, land_mask,
    show (63 : Nat) = 2 ^ 6 - 1 by norm_num, land_mask, cget_eq]
  rfl

theorem fastLookup_eq (key : Nat) :
    fastLookup key = LOOKUP.get ((key + PERF_HASH_OFFSETS.get (key >>> 12)) % 2 ^ 32) := by
  unfold fastLookup
  rw [force_eq, fastHash_eq, cget_eq]
  rw [show (0xffff : Nat) = 2 ^ 16 - 1 by norm_num, land_mask,
    show (127 : Nat) = 2 ^ 7 - 1 by norm_num, land_mask]
  rfl

theorem fastFlush_eq (m : Nat) : fastFlush m = LOOKUP_FLUSH.get m := by
  unfold fastFlush
  rw [show (0xffff : Nat) = 2 ^ 16 - 1 by norm_num, land_mask,
    show (127 : Nat) = 2 ^ 7 - 1 by norm_num, land_mask, cget_eq]
  rfl

/-- All choices of multiplicities `≤ 4` for the ranks with keys `rs`, at most `left` cards in all:
`P` is called with the number of unused cards, the key sum and the multiplicities (last rank first). -/
noncomputable def forCounts (P : Nat → Nat → List Nat → Bool) (rs : List Nat) : Nat → Nat → List Nat → Bool :=
  @List.rec Nat (fun _ => Nat → Nat → List Nat → Bool) (fun left key acc => P left key acc)
   (fun r _ ih left key acc =>
     bif' (ih left key (0 :: acc))
       (@Nat.rec (fun _ => Bool) true (fun l _ => force (Nat.add key r) fun k => bif' (ih l k (1 :: acc))
         (@Nat.rec (fun _ => Bool) true (fun l _ => force (Nat.add k r) fun k => bif' (ih l k (2 :: acc))
           (@Nat.rec (fun _ => Bool) true (fun l _ => force (Nat.add k r) fun k => bif' (ih l k (3 :: acc))
             (@Nat.rec (fun _ => Bool) true (fun l _ => force (Nat.add k r) fun k => ih l k (4 :: acc)) l)
             false) l) false) l) false) left) false) rs

/-- Scalar product. -/
def dot : List Nat → List Nat → Nat
  | r :: rs, c :: cs => c * r + dot rs cs
  | _, _ => 0

theorem forCounts_cons (P : Nat → Nat → List Nat → Bool) (r : Nat) (rs : List Nat) (left key : Nat) (acc : List Nat) :
    forCounts P (r :: rs) left key acc = true ↔
    ∀ c, c ≤ 4 → c ≤ left → forCounts P rs (left - c) (key + c * r) (c :: acc) = true := by
  have e : forCounts P (r :: rs) left key acc =
     bif' (forCounts P rs left key (0 :: acc))
       (@Nat.rec (fun _ => Bool) true (fun l _ => force (Nat.add key r) fun k => bif' (forCounts P rs l k (1 :: acc))
         (@Nat.rec (fun _ => Bool) true (fun l _ => force (Nat.add k r) fun k => bif' (forCounts P rs l k (2 :: acc))
           (@Nat.rec (fun _ => Bool) true (fun l _ => force (Nat.add k r) fun k => bif' (forCounts P rs l k (3 :: acc))
             (@Nat.rec (fun _ => Bool) true (fun l _ => force (Nat.add k r) fun k => forCounts P rs l k (4 :: acc)) l)
             false) l) false) l) false) left) false := rfl
  rw [e]
  simp only [bif'_and, Bool.and_eq_true]
  have a1 : key + 1 * r = Nat.add key r := by show _ = key + r; ring
  have a2 : key + 2 * r = Nat.add (Nat.add key r) r := by show _ = key + r + r; ring
  have a3 : key + 3 * r = Nat.add (Nat.add (Nat.add key r) r) r := by show _ = key + r + r + r; ring
  have a4 : key + 4 * r = Nat.add (Nat.add (Nat.add (Nat.add key r) r) r) r := by show _ = key + r + r + r + r; ring
  constructor
  · rintro ⟨h0, h⟩ c hc hl
    rcases Nat.eq_zero_or_pos c with rfl | hc1
    · simpa using h0
    obtain ⟨l, rfl⟩ : ∃ l, left = l + 1 := ⟨left - 1, by omega⟩
    simp only [Bool.and_eq_true] at h
    obtain ⟨h1, h⟩ := h
    rcases Nat.eq_or_lt_of_le hc1 with hc | hc2
    · obtain rfl : c = 1 := hc.symm
      rw [a1]; exact h1
    obtain ⟨l, rfl⟩ : ∃ k, l = k + 1 := ⟨l - 1, by omega⟩
    simp only [Bool.and_eq_true] at h
    obtain ⟨h2, h⟩ := h
    rcases Nat.eq_or_lt_of_le hc2 with hc | hc3
    · obtain rfl : c = 2 := hc.symm
      rw [a2]; exact h2
    obtain ⟨l, rfl⟩ : ∃ k, l = k + 1 := ⟨l - 1, by omega⟩
    simp only [Bool.and_eq_true] at h
    obtain ⟨h3, h⟩ := h
    rcases Nat.eq_or_lt_of_le hc3 with hc | hc4
    · obtain rfl : c = 3 := hc.symm
      rw [a3]; exact h3
    obtain ⟨l, rfl⟩ : ∃ k, l = k + 1 := ⟨l - 1, by omega⟩
    obtain rfl : c = 4 := by omega
    rw [a4]; exact h
  · intro h
    refine ⟨by simpa using h 0 (by omega) (by omega), ?_⟩
    rcases left with _ | l
    · rfl
    simp only [Bool.and_eq_true]
    refine ⟨a1 ▸ h 1 (by omega) (by omega), ?_⟩
    rcases l with _ | l
    · rfl
    simp only [Bool.and_eq_true]
    refine ⟨a2 ▸ h 2 (by omega) (by omega), ?_⟩
    rcases l with _ | l
    · rfl
    simp only [Bool.and_eq_true]
    refine ⟨a3 ▸ h 3 (by omega) (by omega), ?_⟩
    rcases l with _ | l
    · rfl
    exact a4 ▸ h 4 (by omega) (by omega)

theorem forCounts_sound (P : Nat → Nat → List Nat → Bool) (rs : List Nat) :
    ∀ (left key : Nat) (acc : List Nat), forCounts P rs left key acc = true →
    ∀ cs : List Nat, cs.length = rs.length → (∀ c ∈ cs, c ≤ 4) → cs.sum ≤ left →
      P (left - cs.sum) (key + dot rs cs) (cs.reverse ++ acc) = true := by
  induction rs with
  | nil =>
    intro left key acc h cs hl _ _
    cases cs with
    | nil => simpa [forCounts, dot] using h
    | cons => simp at hl
  | cons r rs ih =>
    intro left key acc h cs hl h4 hs
    cases cs with
    | nil => simp at hl
    | cons c cs =>
      have hl' : cs.length = rs.length := by simpa using hl
      have h4' : ∀ c ∈ cs, c ≤ 4 := fun x hx => h4 x (List.mem_cons_of_mem _ hx)
      have hc : c ≤ 4 := h4 c List.mem_cons_self
      have hs' : c + cs.sum ≤ left := by simpa using hs
      have := ih _ _ _ ((forCounts_cons ..).1 h c hc (by omega)) cs hl' h4' (by omega)
      rw [List.sum_cons, List.reverse_cons, List.append_assoc, dot, ← Nat.add_assoc, ← Nat.sub_sub]
      exact this

/-- Rank keys, ace first. -/
def ranksRev : List Nat :=
  [4801683, 4780561, 4767972, 4690024, 4685870, 4300819, 3563520, 1531909, 593920, 237568, 69632, 32769, 8192]

/-- Rank keys, jack first. -/
def ranksRev3 : List Nat :=
  [4690024, 4685870, 4300819, 3563520, 1531909, 593920, 237568, 69632, 32769, 8192]

/-- Splits a check over all ranks into pieces with given numbers of aces, kings and queens. -/
theorem forCounts_split (P : Nat → Nat → List Nat → Bool) (n : Nat)
    (h : ∀ a, a ≤ 4 → ∀ k, k ≤ 4 → ∀ q, q ≤ 4 → a + k + q ≤ n →
      forCounts P ranksRev3 (n - (a + k + q)) (a * 4801683 + k * 4780561 + q * 4767972) [q, k, a] = true) :
    forCounts P ranksRev n 0 [] = true := by
  unfold ranksRev
  rw [forCounts_cons]
  intro a ha ha'
  rw [forCounts_cons]
  intro k hk hk'
  rw [forCounts_cons]
  intro q hq hq'
  have := h a ha k hk q hq (by omega)
  rw [Nat.sub_sub, Nat.sub_sub, ← Nat.add_assoc]
  simpa [ranksRev3] using this

/-- With `x` the table value of the multiset with key `key`: no table value after removing one card exceeds `x`, and
(unless `seen`) one of them equals `x`. -/
noncomputable def remCheck (x key : Nat) (rs : List Nat) : List Nat → Bool → Bool :=
  @List.rec Nat (fun _ => List Nat → Bool → Bool) (fun _ seen => seen)
   (fun r _ ih cs seen => @List.rec Nat (fun _ => Bool) seen (fun c cs _ =>
      @Nat.rec (fun _ => Bool) (ih cs seen) (fun _ _ =>
       force (fastLookup (Nat.sub key r)) fun y =>
         bif' (Nat.ble y x) (bif' (Nat.beq y x) (ih cs true) (ih cs seen)) false) c) cs) rs

/-- Number of non-zero entries. -/
noncomputable def distinct (cs : List Nat) : Nat :=
  @List.rec Nat (fun _ => Nat) 0 (fun c _ ih => @Nat.rec (fun _ => Nat) ih (fun _ _ => Nat.succ ih) c) cs

/-- Base-16 code of the tie-breaking ranks, padded to `k` digits. -/
def encTail : Nat → List Nat → Nat
  | 0, _ => 0
  | _ + 1, [] => 0
  | k + 1, v :: vs => (v + 1) * 16 ^ k + encTail k vs

/-- Base-16 code of a strength. -/
def encode : List Nat → Nat
  | [] => 0
  | c :: vs => c * 16 ^ 5 + encTail 5 vs

/-- Check for six and seven cards: the table value is the maximum over removing one card. -/
noncomputable def leafBig (left key : Nat) (acc : List Nat) : Bool :=
  @Nat.rec (fun _ => Bool) (force (fastLookup key) fun x => remCheck x key RANKS acc false) (fun _ _ => true) left

/-- With at least four different ranks (and at most six cards) the table value is below every flush. -/
noncomputable def leafNoFlush (_left key : Nat) (acc : List Nat) : Bool :=
  bif' (Nat.ble 4 (distinct acc)) (Nat.ble (Nat.succ (fastLookup key)) 24576) true

/-- In-bounds check. -/
noncomputable def leafBounds (_left key : Nat) (_acc : List Nat) : Bool :=
  bif' (Nat.ble (Nat.succ (Nat.shiftRight key 12)) 8191) (Nat.ble (Nat.succ (fastHash key)) 86362) false

/-- Check for two to five cards (`left` of the five unused): the certificate maps the table value to the code of the strength. -/
noncomputable def leafCode (left key : Nat) (acc : List Nat) : Bool :=
  bif' (Nat.ble left 3)
    (force (fastLookup key) fun x => bif' (Nat.ble (Nat.succ x) 36875)
      (Nat.beq (fastCode x) (encode (Spec.valueOf (fun r => acc.getD r 0) false))) false) true

/-- Check for three to five cards: removing a card does not raise the table value. -/
noncomputable def leafMono (left key : Nat) (acc : List Nat) : Bool :=
  bif' (Nat.ble left 2) (force (fastLookup key) fun x => remCheck x key RANKS acc true) true

/-- All subsets of the bits `bs`: `P` gets the sum of the chosen bits and the indicator list (last bit first). -/
noncomputable def forBits (P : Nat → List Nat → Bool) (bs : List Nat) : Nat → List Nat → Bool :=
  @List.rec Nat (fun _ => Nat → List Nat → Bool) (fun m acc => P m acc)
   (fun b _ ih m acc => bif' (ih m (0 :: acc)) (force (Nat.add m b) fun k => ih k (1 :: acc)) false) bs

theorem forBits_sound (P : Nat → List Nat → Bool) (bs : List Nat) :
    ∀ (m : Nat) (acc : List Nat), forBits P bs m acc = true →
    ∀ cs : List Nat, cs.length = bs.length → (∀ c ∈ cs, c ≤ 1) → P (m + dot bs cs) (cs.reverse ++ acc) = true := by
  induction bs with
  | nil =>
    intro m acc h cs hl _
    cases cs with
    | nil => simpa [forBits, dot] using h
    | cons => simp at hl
  | cons b bs ih =>
    intro m acc h cs hl h1
    cases cs with
    | nil => simp at hl
    | cons c cs =>
      have e : forBits P (b :: bs) m acc = bif' (forBits P bs m (0 :: acc)) (forBits P bs (m + b) (1 :: acc)) false := rfl
      rw [e, bif'_and, Bool.and_eq_true] at h
      have hl' : cs.length = bs.length := by simpa using hl
      have h1' : ∀ c ∈ cs, c ≤ 1 := fun x hx => h1 x (List.mem_cons_of_mem _ hx)
      have hc : c ≤ 1 := h1 c List.mem_cons_self
      rw [List.reverse_cons, List.append_assoc, dot, ← Nat.add_assoc]
      rcases Nat.le_one_iff_eq_zero_or_eq_one.1 hc with rfl | rfl
      · have := ih _ _ h.1 cs hl' h1'
        simpa using this
      · have := ih _ _ h.2 cs hl' h1'
        simpa using this

/-- Sum of a list, evaluation friendly. -/
noncomputable def total (cs : List Nat) : Nat := @List.rec Nat (fun _ => Nat) 0 (fun c _ ih => Nat.add c ih) cs

theorem total_eq (cs : List Nat) : total cs = cs.sum := by
  induction cs with
  | nil => rfl
  | cons c cs ih => rw [List.sum_cons, ← ih]; rfl

/-- Rank bits, ace first. -/
def bitsRev : List Nat := [4096, 2048, 1024, 512, 256, 128, 64, 32, 16, 8, 4, 2, 1]

/-- Rank bits, deuce first. -/
def bitsUp : List Nat := [1, 2, 4, 8, 16, 32, 64, 128, 256, 512, 1024, 2048, 4096]

/-- As `remCheck`, for the flush table. -/
noncomputable def remFlush (x m : Nat) (bs : List Nat) : List Nat → Bool → Bool :=
  @List.rec Nat (fun _ => List Nat → Bool → Bool) (fun _ seen => seen)
   (fun b _ ih cs seen => @List.rec Nat (fun _ => Bool) seen (fun c cs _ =>
      @Nat.rec (fun _ => Bool) (ih cs seen) (fun _ _ =>
       force (fastFlush (Nat.sub m b)) fun y =>
         bif' (Nat.ble y x) (bif' (Nat.beq y x) (ih cs true) (ih cs seen)) false) c) cs) bs

/-- Check of one five-bit flush mask. -/
noncomputable def leafFlush5 (m : Nat) (acc : List Nat) : Bool :=
  bif' (Nat.beq (total acc) 5)
    (force (fastFlush m) fun x => bif' (Nat.ble (Nat.succ x) 36875) (bif' (Nat.ble 24576 x)
      (Nat.beq (fastCode x) (encode (Spec.valueOf (fun r => acc.getD r 0) true))) false) false) true

/-- Check of one six- or seven-bit flush mask. -/
noncomputable def leafFlushBig (m : Nat) (acc : List Nat) : Bool :=
  bif' (Nat.ble 6 (total acc)) (bif' (Nat.ble (total acc) 7)
    (force (fastFlush m) fun x => bif' (Nat.ble 24576 x) (remFlush x m bitsUp acc false) false) true) true

/-- The certificate is strictly monotone on its non-zero entries and agrees with the category `s / 4096`. -/
noncomputable def scan (fuel : Nat) : Nat → Nat → Bool :=
  @Nat.rec (fun _ => Nat → Nat → Bool) (fun _ _ => true)
   (fun _ ih s last => force s fun s => force (fastCode s) fun c =>
     bif' (Nat.beq c 0) (ih (Nat.succ s) last)
       (bif' (Nat.ble (Nat.succ last) c) (bif' (Nat.beq (Nat.shiftRight c 20) (Nat.shiftRight s 12))
         (ih (Nat.succ s) c) false) false)) fuel

end Pokers.Kernel
