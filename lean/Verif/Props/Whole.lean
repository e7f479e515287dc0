import Verif.Model.Whole
import Verif.Props.EndToEnd
import Verif.Props.ReleaseText
import Verif.Props.ReleaseMc
import Verif.Props.Poison
import Verif.Props.Docs
/-!
# A whole program: from the texts to the `f64` numbers, with threads, locks and callback (C83)
-/
namespace Pokers
open Spec

/-- An equity problem that the exact calculation can handle: up to eight players, a board of at most five cards, enough cards, some deal,
counters and positions that fit into 64 bits, and weights that can be shared without remainder. -/
structure Playable (Rs : List (List WHand)) (board dead : List Nat) : Prop where
  players : 2 ≤ Rs.length ∧ Rs.length ≤ 8
  street : board.length ≤ 5
  cards : 2 * Rs.length + dead.length + 5 ≤ 52
  deal : deals Rs (board ++ dead) ≠ []
  weight : totalWeight (showdowns Rs board dead) < 2 ^ 64
  number : (showdowns Rs board dead).length < 2 ^ 64
  positions : (Rs.map List.length).prod + 2000000 < 2 ^ 64
  shares : ∀ x ∈ showdowns Rs board dead, (winners x.2 x.1).length ∣ Spec.dealWeight x.1

variable {lower : List Char → List Char} {texts : List (List Char)} {boardText deadText : List Char} {Rs : List (List WHand)}
  {board dead : List Nat} {ranges : List (List Combo)} {nT : Nat} {cancelled stopped : Bool} {cb : CallbackP} {calls : List Nat}
  {e : Ended (Except SimulatorError Results)}

theorem mapM_follows {α β ε : Type} {f g : α → Except ε β} (hfg : ∀ x y, f x = .ok y → g x = .ok y) {l : List α} {ys : List β}
    (h : l.mapM f = .ok ys) : l.mapM g = .ok ys := by
  induction l generalizing ys with
  | nil =>
    simp only [List.mapM_nil] at h ⊢
    exact h
  | cons x l ih =>
    rw [List.mapM_cons] at h ⊢
    cases hx : f x with
    | error p => rw [hx] at h; cases h
    | ok r =>
      cases hl : l.mapM f with
      | error p => rw [hx, hl] at h; cases h
      | ok rs =>
        rw [hx, hl] at h
        rw [hfg x r hx, ih hl]
        exact h

theorem texts_same {texts : List (List Char)} {ranges : List (List Combo)} (h : fromStrings lower texts = .ok ranges) :
    fromStringsR lower texts = .ok ranges := mapM_follows (fun _ _ h => C76_same h) h

namespace Parsed

theorem lengths (h : Parsed lower texts boardText deadText Rs board dead ranges) : ranges.map List.length = Rs.map List.length := by
  have hpm := h.perm
  unfold specRanges at hpm
  rw [List.forall₂_map_left_iff] at hpm
  clear h
  induction hpm with
  | nil => rfl
  | cons h1 _ ih => rw [List.map_cons, List.map_cons, ih, ← h1.length_eq, List.length_map]

theorem number (h : Parsed lower texts boardText deadText Rs board dead ranges) :
    (showdowns (specRanges ranges) (maskCards (getCardMask lower boardText)) (maskCards (getCardMask lower deadText))).length =
      (showdowns Rs board dead).length := by
  have := h.sum (fun _ => 1) fun _ _ _ _ => rfl
  simpa using this

theorem small (h : Parsed lower texts boardText deadText Rs board dead ranges) (hp : Playable Rs board dead) :
    Small ranges (getCardMask lower boardText) (getCardMask lower deadText) := by
  refine ⟨⟨h.percent, fun dd hdd => ?_⟩, ?_, ?_⟩
  · have h1 := deal_le h.percent hdd
    have h2 : 100 ^ ranges.length ≤ 100 ^ 8 := Nat.pow_le_pow_right (by decide) (by rw [h.length]; exact hp.players.2)
    omega
  · rw [h.totalWeight]; exact hp.weight
  · rw [h.number]; exact hp.number

theorem room (h : Parsed lower texts boardText deadText Rs board dead ranges) (hp : Playable Rs board dead) :
    Room ranges (getCardMask lower boardText) (getCardMask lower deadText) :=
  room_of_prod (by rw [h.lengths]; exact hp.positions)

theorem valid (h : Parsed lower texts boardText deadText Rs board dead ranges) (h2 : 2 ≤ Rs.length) (h9 : Rs.length ≤ 9)
    (hb : board.length ≤ 5) (hd : 2 * Rs.length + dead.length + 5 ≤ 52) :
    Pokers.validate ranges.length (getCardMask lower boardText) (getCardMask lower deadText) = none := by
  have e1 := maskCards_length h.deck.1
  have e2 := maskCards_length h.deck.2
  rw [h.cards.1.length_eq] at e1
  rw [h.cards.2.length_eq] at e2
  have := h.length
  unfold Pokers.validate
  rw [if_neg (by unfold MIN_PLAYERS; omega), if_neg (by unfold MAX_PLAYERS; omega), if_neg (by unfold BOARD_CARDS; omega),
    if_neg (by unfold BOARD_CARDS CARD_COUNT; omega)]

theorem prepared (h : Parsed lower texts boardText deadText Rs board dead ranges) (h2 : 2 ≤ Rs.length) (h9 : Rs.length ≤ 9)
    (hb : board.length ≤ 5) (hd : 2 * Rs.length + dead.length + 5 ≤ 52) (hdeal : Spec.deals Rs (board ++ dead) ≠ []) :
    ∃ s, prepareExact ranges (getCardMask lower boardText) (getCardMask lower deadText) = .ok s :=
  prepare_of_deal h.wf h.deck.1.mask h.deck.2.mask (h.valid h2 h9 hb hd) (h.deals hdeal)

end Parsed

theorem ok_of_prepared {b d : Nat} {s : Sim} (hs : prepareExact ranges b d = .ok s) {err : SimulatorError} :
    ¬ ExactDebug ranges b d nT cancelled stopped cb (.returned (.error err)) calls ∧
    ¬ ExactRelease ranges b d nT cancelled stopped cb (.returned (.error err)) calls := by
  constructor
  · intro h
    have := C81_debug_returned h
    unfold ExactEquityD at this
    rw [hs] at this
    simp at this
  · intro h
    have := C81_release_returned h
    unfold ExactEquityR at this
    rw [hs] at this
    simp at this

/-- What the equities of the floating-point model are. -/
theorem float_equities (hq : Parsed lower texts boardText deadText Rs board dead ranges) (hp : Playable Rs board dead) (hT : 0 < nT)
    {r : Results} (h : ExactEquityF ranges (getCardMask lower boardText) (getCardMask lower deadText) nT cancelled false (.ok r) calls) :
    (totalWeight (showdowns Rs board dead) ≤ 2 ^ 53 → r.equities = (List.range Rs.length).map fun p => (equityOf Rs board dead p).map fl) ∧
    ((∀ p < Rs.length, sharesOf (showdowns Rs board dead) p ≤ 2 ^ 53) → ∀ p < Rs.length, ∀ a, equityOf Rs board dead p = some a →
      ∃ f, r.equities[p]? = some (some f) ∧ |f - a| ≤ (Rs.length + 4) / 2 ^ 52 * a) := by
  have hl := hq.length
  have h8 := hp.players.2
  obtain ⟨r0, sent, h1, h2⟩ := C63_exact_mode hq.wf hq.deck.1.mask hq.deck.2.mask h
  obtain ⟨s, ds, total, size, flag, r1, hist, D, hrun, _⟩ := exact_run hq.wf hq.deck.1.mask hq.deck.2.mask h1
  obtain ⟨_, _, _, hall⟩ := hrun.counts
  have hc := (hall hT rfl).2
  have hm : ∑ i ∈ Finset.range (2 ^ ranges.length), r0.winsByMask i = totalWeight (showdowns Rs board dead) := by
    rw [← hq.totalWeight]
    exact hc.maskSum (fun x hx => by
      obtain ⟨hdd, _⟩ := legal_iff.2 hx
      exact (deals_wf hq.wf hdd).1) (by omega)
  obtain ⟨e1, e2⟩ := C61_exact hq.wf hq.deck.1.mask hq.deck.2.mask hT (by omega) (hq.whole hp.shares) h1
  have hlen := equities_length hq.wf hq.deck.1.mask hq.deck.2.mask h1
  have he : ∀ p < Rs.length, r0.equities[p]? = some (equityOf Rs board dead p) := fun p hpl => by
    rw [e2 p (by omega), equityOf_eq, hq.winsOf, hq.sharesOf, hq.totalWeight]
  constructor
  · intro h53
    rw [h2.once (by rw [hm]; exact h53)]
    apply List.ext_getElem?
    intro p
    by_cases hpl : p < Rs.length
    · rw [List.getElem?_map, he p hpl, List.getElem?_map, List.getElem?_range hpl]
      rfl
    · rw [List.getElem?_eq_none (by rw [List.length_map]; omega), List.getElem?_eq_none (by simpa using hpl)]
  · intro hs p hpl a ha
    have hw := hp.weight
    have hn := h2.near (fun q hql => by rw [e1 q hql, hq.sharesOf]; exact hs q (by omega))
      (by rw [hm]; exact hw.trans (by norm_num))
    have hlen' := hn.length_eq
    have hpr : p < r0.equities.length := by omega
    have h3 := (List.forall₂_iff_get.1 hn).2 p hpr (by omega)
    have h4 := he p hpl
    rw [List.getElem?_eq_getElem hpr, ha] at h4
    simp only [List.get_eq_getElem] at h3
    rw [Option.some.inj h4] at h3
    have ha0 : 0 ≤ a := by
      unfold equityOf at ha
      simp only at ha
      split at ha
      · cases ha
      · rw [← Option.some.inj ha, winning_sum]
        refine div_nonneg (add_nonneg (by positivity) ?_) (by positivity)
        rw [sharesOf_eq_sum]
        refine List.sum_nonneg fun y hy => ?_
        obtain ⟨x, _, rfl⟩ := List.mem_map.1 hy
        split <;> positivity
    cases hf : r.equities[p]'(by omega) with
    | none => rw [hf] at h3; exact absurd h3 (by simp [OptRel])
    | some f =>
      rw [hf] at h3
      refine ⟨f, by rw [List.getElem?_eq_getElem (by omega), hf], ?_⟩
      have := C63_error (k := ranges.length + 4) (by omega) ha0 h3
      rw [hl] at this
      exact_mod_cast this

/-- C83: the whole program in a release build, for a problem within the limits and a callback that does not panic.  There is an end for
every number of threads; every end is the return of a result, never a panic or an error; and if the calculation has not been cancelled,
the equities are the `f64` numbers nearest to those of the problem if all the showdowns weigh at most `2 ^ 53` together, and else differ
from them by at most `n + 4` roundings if no player's shares weigh more than `2 ^ 53`. -/
theorem C83_release (h : Problem lower texts boardText deadText Rs board dead) (hp : Playable Rs board dead) (hT : 0 < nT)
    (hcb : ∀ c m, cb c m ≠ none) :
    (∀ cancelled, ∃ e calls stopped, WholeRelease lower texts boardText deadText nT cancelled stopped cb e calls ∧
      ((∀ c m, cb c m = some false) → stopped = cancelled)) ∧
    ∀ cancelled stopped e calls, WholeRelease lower texts boardText deadText nT cancelled stopped cb e calls →
      ∃ r, e = .returned (.ok r) ∧ (stopped = false →
        (totalWeight (showdowns Rs board dead) ≤ 2 ^ 53 → r.equities = (List.range Rs.length).map fun p => (equityOf Rs board dead p).map fl) ∧
        ((∀ p < Rs.length, sharesOf (showdowns Rs board dead) p ≤ 2 ^ 53) → ∀ p < Rs.length, ∀ a, equityOf Rs board dead p = some a →
          ∃ f, r.equities[p]? = some (some f) ∧ |f - a| ≤ (Rs.length + 4) / 2 ^ 52 * a)) := by
  obtain ⟨ranges, hq⟩ := h.parsed
  have hS := hq.small hp
  have hR := hq.room hp
  obtain ⟨s, hs⟩ := hq.prepared hp.players.1 (by have := hp.players.2; omega) hp.street hp.cards hp.deal
  unfold WholeRelease
  rw [texts_same hq.ok]
  constructor
  · intro cancelled
    obtain ⟨r, sent, hrun⟩ := run_of_deal hq.wf hq.deck.1.mask hq.deck.2.mask
      (hq.valid hp.players.1 (by have := hp.players.2; omega) hp.street hp.cards) (hq.deals hp.deal)
      (by rw [hq.lengths]; exact hp.positions) nT cancelled
    obtain ⟨r', sent', hF, _⟩ := C63_exact_runs hq.wf hq.deck.1.mask hq.deck.2.mask hrun
    obtain ⟨stopped, hE, hst⟩ := C81_release_all hcb ((C75_no_overflow hq.wf hq.deck.1.mask hq.deck.2.mask hS hR _ _).2 hF)
    exact ⟨_, _, stopped, hE, hst⟩
  · intro cancelled stopped e calls hE
    match e, hE with
    | .panicked, hE => exact absurd hE (C81_release_no_panic hq.wf hq.deck.1.mask hq.deck.2.mask hR hcb)
    | .returned (.error err), hE => exact absurd hE (ok_of_prepared hs).2
    | .returned (.ok r), hE =>
      refine ⟨r, rfl, ?_⟩
      rintro rfl
      exact float_equities hq hp hT ((C75_no_overflow hq.wf hq.deck.1.mask hq.deck.2.mask hS hR _ _).1 (C81_release_returned hE))

/-- C83: the whole program in a debug build: no check of overflow or bounds fails either.  (The numbers are exact ones in this model.) -/
theorem C83_debug (h : Problem lower texts boardText deadText Rs board dead) (hp : Playable Rs board dead) (hT : 0 < nT)
    (hcb : ∀ c m, cb c m ≠ none) :
    (∀ cancelled, ∃ e calls stopped, WholeDebug lower texts boardText deadText nT cancelled stopped cb e calls ∧
      ((∀ c m, cb c m = some false) → stopped = cancelled)) ∧
    ∀ cancelled stopped e calls, WholeDebug lower texts boardText deadText nT cancelled stopped cb e calls →
      ∃ r, e = .returned (.ok r) ∧ (stopped = false → r.equities = (List.range Rs.length).map (equityOf Rs board dead)) := by
  obtain ⟨r1, o1, he⟩ := C71_equities h hp.players.2 hp.shares
  obtain ⟨ranges, hq⟩ := h.parsed
  rw [hq.ok] at o1
  obtain rfl : ranges = r1 := Except.ok.inj o1
  have hS := hq.small hp
  have hR := hq.room hp
  obtain ⟨s, hs⟩ := hq.prepared hp.players.1 (by have := hp.players.2; omega) hp.street hp.cards hp.deal
  unfold WholeDebug
  rw [hq.ok]
  constructor
  · intro cancelled
    obtain ⟨r, sent, hrun⟩ := run_of_deal hq.wf hq.deck.1.mask hq.deck.2.mask
      (hq.valid hp.players.1 (by have := hp.players.2; omega) hp.street hp.cards) (hq.deals hp.deal)
      (by rw [hq.lengths]; exact hp.positions) nT cancelled
    obtain ⟨stopped, hE, hst⟩ := C81_debug_all hcb ((C68_exact hq.wf hq.deck.1.mask hq.deck.2.mask hS _ _).2 hrun)
    exact ⟨_, _, stopped, hE, hst⟩
  · intro cancelled stopped e calls hE
    match e, hE with
    | .panicked, hE => exact absurd hE (C81_debug_no_panic hq.wf hq.deck.1.mask hq.deck.2.mask hS hR hcb)
    | .returned (.error err), hE => exact absurd hE (ok_of_prepared hs).1
    | .returned (.ok r), hE =>
      refine ⟨r, rfl, ?_⟩
      rintro rfl
      exact he nT hT cancelled r calls ((C68_exact hq.wf hq.deck.1.mask hq.deck.2.mask hS _ _).1 (C81_debug_returned hE))

/-- Two players: every problem is within the limits if there are enough cards, some deal is possible and one player's weights are even. -/
theorem two_playable {R0 R1 : List WHand} (h : Problem lower texts boardText deadText [R0, R1] board dead) (hb : board.length ≤ 5)
    (hd : dead.length ≤ 43) (hdeal : deals [R0, R1] (board ++ dead) ≠ []) (heven : (∀ x ∈ R0, 2 ∣ x.2.2) ∨ ∀ x ∈ R1, 2 ∣ x.2.2) :
    Playable [R0, R1] board dead := by
  obtain ⟨ranges, hq⟩ := h.parsed
  have hS : Small ranges (getCardMask lower boardText) (getCardMask lower deadText) := C51_two_players hq.length hq.percent hq.few
  refine ⟨⟨by simp, by simp⟩, hb, by simp; omega, hdeal, ?_, ?_, ?_, even_shares heven⟩
  · rw [← hq.totalWeight]; exact hS.weight
  · rw [← hq.number]; exact hS.number
  · rw [← hq.lengths]
    match ranges, hq.length, hq.few with
    | [x, y], _, hr =>
      have h1 := hr x (by simp)
      have h2 := hr y (by simp)
      have h3 : x.length * y.length ≤ 1326 * 1326 := Nat.mul_le_mul h1 h2
      simp only [List.map_cons, List.map_nil, List.prod_cons, List.prod_nil, Nat.mul_one]
      omega

/-- C83, for two players: whatever the ranges, the board and the dead cards, in a release build. -/
theorem C83_two_players {R0 R1 : List WHand} (h : Problem lower texts boardText deadText [R0, R1] board dead) (hb : board.length ≤ 5)
    (hd : dead.length ≤ 43) (hdeal : deals [R0, R1] (board ++ dead) ≠ []) (heven : (∀ x ∈ R0, 2 ∣ x.2.2) ∨ ∀ x ∈ R1, 2 ∣ x.2.2)
    (hT : 0 < nT) (hcb : ∀ c m, cb c m ≠ none) :
    (∀ cancelled, ∃ e calls stopped, WholeRelease lower texts boardText deadText nT cancelled stopped cb e calls ∧
      ((∀ c m, cb c m = some false) → stopped = cancelled)) ∧
    ∀ cancelled stopped e calls, WholeRelease lower texts boardText deadText nT cancelled stopped cb e calls →
      ∃ r, e = .returned (.ok r) ∧ (stopped = false →
        (totalWeight (showdowns [R0, R1] board dead) ≤ 2 ^ 53 →
          r.equities = [(equityOf [R0, R1] board dead 0).map fl, (equityOf [R0, R1] board dead 1).map fl]) ∧
        ((∀ p < 2, sharesOf (showdowns [R0, R1] board dead) p ≤ 2 ^ 53) → ∀ p < 2, ∀ a, equityOf [R0, R1] board dead p = some a →
          ∃ f, r.equities[p]? = some (some f) ∧ |f - a| ≤ 6 / 2 ^ 52 * a)) := by
  obtain ⟨h1, h2⟩ := C83_release h (two_playable h hb hd hdeal heven) hT hcb
  refine ⟨h1, fun cancelled stopped e calls hE => ?_⟩
  obtain ⟨r, e1, e2⟩ := h2 cancelled stopped e calls hE
  refine ⟨r, e1, fun hs => ⟨fun h53 => (e2 hs).1 h53, fun hsh p hp a ha => ?_⟩⟩
  obtain ⟨f, f1, f2⟩ := (e2 hs).2 hsh p hp a ha
  refine ⟨f, f1, f2.trans (le_of_eq ?_)⟩
  simp only [List.length_cons, List.length_nil]
  norm_num

/-! ## The random simulation -/

theorem Parsed.legal (h : Parsed lower texts boardText deadText Rs board dead ranges) {x : List WHand × List Nat}
    (hx : x ∈ showdowns (specRanges ranges) (maskCards (getCardMask lower boardText)) (maskCards (getCardMask lower deadText))) :
    ∃ B, B.Perm x.2 ∧ (x.1, B) ∈ showdowns Rs board dead := by
  classical
  let F : List WHand × List Nat → Nat := fun y => if y.1 = x.1 ∧ y.2.Perm x.2 then 1 else 0
  have e := h.sum F fun d X Y e => by
    have : X.Perm x.2 ↔ Y.Perm x.2 := ⟨fun h => e.symm.trans h, fun h => e.trans h⟩
    simp only [F, this]
  have h1 : 0 < ((showdowns Rs board dead).map F).sum := by
    rw [← e]
    have := List.single_le_sum (fun _ _ => Nat.zero_le _) (F x) (List.mem_map_of_mem (f := F) hx)
    have h2 : F x = 1 := if_pos ⟨rfl, List.Perm.refl _⟩
    omega
  obtain ⟨z, hz, hz0⟩ : ∃ z ∈ showdowns Rs board dead, F z ≠ 0 := by
    by_contra hc
    push Not at hc
    have : ((showdowns Rs board dead).map F).sum = 0 := by
      rw [List.sum_eq_zero_iff]
      intro y hy
      obtain ⟨z, hz, rfl⟩ := List.mem_map.1 hy
      exact hc z hz
    omega
  have h3 : z.1 = x.1 ∧ z.2.Perm x.2 := by
    by_contra hn
    exact hz0 (if_neg hn)
  exact ⟨z.2, h3.2, by rw [← h3.1]; exact hz⟩

theorem total_le {K : Nat} {sd : List (List WHand × List Nat)} (h : ∀ x ∈ sd, Spec.dealWeight x.1 ≤ K) : totalWeight sd ≤ sd.length * K := by
  induction sd with
  | nil => simp [totalWeight]
  | cons x sd ih =>
    have h1 := ih fun y hy => h y (by simp [hy])
    have h2 := h x (by simp)
    rw [totalWeight_cons, List.length_cons, Nat.succ_mul]
    omega

theorem not_approx_error {b d : Nat} {s : Sim} (hs : prepareExact ranges b d = .ok s) {sqrt : ℚ → ℚ} {target : ℚ} {err : SimulatorError} :
    ¬ ApproxEquity sqrt ranges b d nT target cancelled (.error err) calls := by
  rintro ⟨p, h1, h2⟩
  cases p with
  | ok s => simp at h2
  | error e =>
    rw [C39_approx, hs] at h1
    cases h1

/-- C83: the program of the README with `approx_equity` in a release build: for every problem with enough cards and a possible deal, and
every callback that does not panic, it can end, and every end is the return of a result, which comes from a list of showdowns of the
problem, 4096 for each message above one per thread.  If these weigh at most `2 ^ 53` (with whole shares and up to eight players), the
equities are the `f64` numbers nearest to those of the list. -/
theorem C83_approx_release (h : Problem lower texts boardText deadText Rs board dead) (h2 : 2 ≤ Rs.length) (h9 : Rs.length ≤ 9)
    (hb : board.length ≤ 5) (hd : 2 * Rs.length + dead.length + 5 ≤ 52) (hdeal : deals Rs (board ++ dead) ≠ []) {target : ℚ}
    (hcb : ∀ c m, cb c m ≠ none) :
    (∃ e calls, WholeApproxRelease lower texts boardText deadText nT target cancelled cb e calls) ∧
    ∀ e calls, WholeApproxRelease lower texts boardText deadText nT target cancelled cb e calls →
      ∃ r, e = .returned (.ok r) ∧ ∃ sd : List (List WHand × List Nat),
        (∀ x ∈ sd, ∃ B, B.Perm x.2 ∧ (x.1, B) ∈ showdowns Rs board dead) ∧ nT ≤ calls.length ∧ sd.length = 4096 * (calls.length - nT) ∧
        r.evalCount = sd.length % 2 ^ 64 ∧
        (Rs.length ≤ 8 → (∀ x ∈ showdowns Rs board dead, (winners x.2 x.1).length ∣ Spec.dealWeight x.1) →
          (sd.length + 1) * 100 ^ Rs.length ≤ 2 ^ 53 → ∀ p < Rs.length,
          r.equities[p]? = some ((fdiv ((winsOf sd [p] : ℚ) + sharesOf sd p) (totalWeight sd : ℚ)).map fl)) := by
  obtain ⟨ranges, hq⟩ := h.parsed
  have hl := hq.length
  obtain ⟨s, hs⟩ := hq.prepared h2 h9 hb hd hdeal
  unfold WholeApproxRelease
  rw [texts_same hq.ok]
  refine ⟨C81_approx_release_exists hq.wf hq.deck.1.mask hq.deck.2.mask cb, fun e calls hE => ?_⟩
  match e, hE with
  | .panicked, hE => exact absurd hE (C81_approx_release_no_panic hq.wf hq.deck.1.mask hq.deck.2.mask hcb)
  | .returned (.error err), hE =>
    exact absurd ((C78_errors (fun _ => 0) 0 err).1 (C81_approx_release_returned hE)) (not_approx_error hs)
  | .returned (.ok r), hE =>
    refine ⟨r, rfl, ?_⟩
    have hR := C81_approx_release_returned hE
    obtain ⟨sd, g1, g2, g3, g4, _⟩ := C78_counts hq.wf hq.deck.1.mask hq.deck.2.mask hR
    by_cases hc : Rs.length ≤ 8 ∧ (∀ x ∈ showdowns Rs board dead, (winners x.2 x.1).length ∣ Spec.dealWeight x.1) ∧
        (sd.length + 1) * 100 ^ Rs.length ≤ 2 ^ 53
    · obtain ⟨h8, hw, h53⟩ := hc
      have hF := (C78_no_overflow hq.wf hq.deck.1.mask hq.deck.2.mask hq.percent (by rw [hl, ← g3]; omega)).1 hR
      obtain ⟨sd', k1, k2, k3⟩ := C63_approx_equities hq.wf hq.deck.1.mask hq.deck.2.mask (by omega) (hq.whole hw) hF
      have hlen : sd'.length = sd.length := by
        rw [← k2, g4]
        apply Nat.mod_eq_of_lt
        have : 1 ≤ 100 ^ Rs.length := Nat.one_le_pow _ _ (by decide)
        have := Nat.mul_le_mul_left (sd.length + 1) this
        omega
      refine ⟨sd', fun x hx => hq.legal (k1 x hx), g2, by rw [hlen, g3], by rw [g4, hlen], fun _ _ h53' p hp => ?_⟩
      refine k3 ?_ p (by omega)
      have h1 := total_le (K := 100 ^ Rs.length) (sd := sd') fun x hx => by
        rw [← hl]
        exact deal_le hq.percent (legal_iff.2 (k1 x hx)).1
      rw [Nat.succ_mul] at h53'
      exact h1.trans ((Nat.le_add_right _ _).trans h53')
    · exact ⟨sd, fun x hx => hq.legal (g1 x hx), g2, g3, g4, fun a1 a2 a3 => absurd ⟨a1, a2, a3⟩ hc⟩

/-- C83: the same in a debug build, where a panic is possible only if the evaluations, plus one, times `100` for each player reach `2^64`
in a run of the threads. -/
theorem C83_approx_debug (h : Problem lower texts boardText deadText Rs board dead) (h2 : 2 ≤ Rs.length) (h9 : Rs.length ≤ 9)
    (hb : board.length ≤ 5) (hd : 2 * Rs.length + dead.length + 5 ≤ 52) (hdeal : deals Rs (board ++ dead) ≠ []) {target : ℚ} {sqrt : ℚ → ℚ}
    (hcb : ∀ c m, cb c m ≠ none) :
    (∃ e calls, WholeApproxDebug sqrt lower texts boardText deadText nT target cancelled cb e calls) ∧
    ∀ e calls, WholeApproxDebug sqrt lower texts boardText deadText nT target cancelled cb e calls →
      (∃ r, e = .returned (.ok r) ∧ ∃ sd : List (List WHand × List Nat),
        (∀ x ∈ sd, ∃ B, B.Perm x.2 ∧ (x.1, B) ∈ showdowns Rs board dead) ∧ r.evalCount = sd.length ∧
        (Rs.length ≤ 8 → (∀ x ∈ showdowns Rs board dead, (winners x.2 x.1).length ∣ Spec.dealWeight x.1) → ∀ p < Rs.length,
          r.equities[p]? = some (fdiv ((winsOf sd [p] : ℚ) + sharesOf sd p) (totalWeight sd : ℚ)))) ∨
      (e = .panicked ∧ ∃ ranges s r0 flag w, fromStrings lower texts = .ok ranges ∧
        PrepareApprox ranges (getCardMask lower boardText) (getCardMask lower deadText) (.ok s) ∧ startResults s = some (r0, flag) ∧
        McStepsC sqrt target s nT (McWorld.init s r0 cancelled) w ∧ 2 ^ 64 ≤ (w.evals nT + 1) * 100 ^ Rs.length) := by
  obtain ⟨ranges, hq⟩ := h.parsed
  have hl := hq.length
  obtain ⟨s, hs⟩ := hq.prepared h2 h9 hb hd hdeal
  unfold WholeApproxDebug
  rw [hq.ok]
  refine ⟨C81_approx_debug_exists hq.wf hq.deck.1.mask hq.deck.2.mask cb, fun e calls hE => ?_⟩
  match e, hE with
  | .panicked, hE =>
    obtain ⟨s, r0, flag, w, k1, k2, k3, k4⟩ := C81_approx_debug_no_panic hq.wf hq.deck.1.mask hq.deck.2.mask hq.percent hcb hE
    exact .inr ⟨rfl, ranges, s, r0, flag, w, rfl, k1, k2, k3, by rw [← hl]; exact k4⟩
  | .returned (.error err), hE =>
    refine absurd (C81_approx_debug_returned hE) fun h => ?_
    refine not_approx_error (sqrt := sqrt) (target := target) (nT := nT) (cancelled := cancelled) (calls := calls) (err := err) hs ?_
    obtain ⟨p, h1, h2⟩ := h
    refine ⟨p, h1, ?_⟩
    cases p with
    | error e => exact h2
    | ok s => simp at h2
  | .returned (.ok r), hE =>
    refine .inl ⟨r, rfl, ?_⟩
    obtain ⟨hA, _⟩ := C59_returned hq.wf hq.deck.1.mask hq.deck.2.mask ((C68_approx_stages hq.wf hq.deck.1.mask hq.deck.2.mask
      (fun r hr c hc => (hq.percent r hr c hc).trans (by decide)) _ _).1 (C81_approx_debug_returned hE))
    by_cases hc : Rs.length ≤ 8 ∧ ∀ x ∈ showdowns Rs board dead, (winners x.2 x.1).length ∣ Spec.dealWeight x.1
    · obtain ⟨sd, k1, k2, _, k3⟩ := C61_approx hq.wf hq.deck.1.mask hq.deck.2.mask (by omega) (hq.whole hc.2) hA
      exact ⟨sd, fun x hx => hq.legal (k1 x hx), k2, fun _ _ p hp => k3 p (by omega)⟩
    · obtain ⟨sd, k1, k2, _⟩ := C41_counts hq.wf hq.deck.1.mask hq.deck.2.mask hA
      exact ⟨sd, fun x hx => hq.legal (k1 x hx), k2, fun a1 a2 => absurd ⟨a1, a2⟩ hc⟩

/-! ## Example -/

/-- C83 on the crate's `test_accuracy` (src/equity_calculator/simulator.rs), in a release build: with any number of threads and any
callback that does not panic or cancel, there is an end, and every end is the return of the number the test expects, to the last bit. -/
theorem C83_accuracy (hT : 0 < nT) (hcb : ∀ c m, cb c m = some false) :
    (∃ e calls, WholeRelease asciiLower ["AA".toList, "random".toList] "KdKsKh3s".toList "".toList nT false false cb e calls) ∧
    ∀ e calls, WholeRelease asciiLower ["AA".toList, "random".toList] "KdKsKh3s".toList "".toList nT false false cb e calls →
      ∃ r, e = .returned (.ok r) ∧ r.equities[0]? = some (some (fl 0.9550285463328941)) := by
  obtain ⟨ranges, hok, hr⟩ := C63_accuracy
  obtain ⟨hrun, hval⟩ := hr nT hT
  have hcb' : ∀ c m, cb c m ≠ none := fun c m => by rw [hcb]; simp
  obtain ⟨ranges', hq⟩ : ∃ ranges, (fromStrings asciiLower ["AA".toList, "random".toList] = .ok ranges ∧ ranges.length = 2 ∧
      (∀ r ∈ ranges, WfRange r) ∧ (∀ r ∈ ranges, ∀ c ∈ r, c.w ≤ 100) ∧ (∀ r ∈ ranges, r.length ≤ 1326)) ∧
      CardMask (getCardMask asciiLower "KdKsKh3s".toList) ∧ CardMask (getCardMask asciiLower "".toList) := by
    obtain ⟨ranges, hq⟩ := accuracy_problem.parsed
    exact ⟨ranges, ⟨hq.ok, hq.length, hq.wf, hq.percent, hq.few⟩, hq.deck.1.mask, hq.deck.2.mask⟩
  obtain ⟨⟨hok', hl, hwf, h100, hfew⟩, hbm, hdm⟩ := hq
  rw [hok] at hok'
  obtain rfl : ranges = ranges' := Except.ok.inj hok'
  have hsame := texts_same hok
  generalize ["AA".toList, "random".toList] = texts at *
  generalize "KdKsKh3s".toList = bt at *
  generalize "".toList = dt at *
  have hR : Room ranges (getCardMask asciiLower bt) (getCardMask asciiLower dt) := by
    refine room_of_prod ?_
    match ranges, hl, hfew with
    | [x, y], _, hr =>
      have h1 := hr x (by simp)
      have h2 := hr y (by simp)
      have h3 : x.length * y.length ≤ 1326 * 1326 := Nat.mul_le_mul h1 h2
      simp only [List.map_cons, List.map_nil, List.prod_cons, List.prod_nil, Nat.mul_one]
      omega
  unfold WholeRelease
  rw [hsame]
  obtain ⟨r, sent, hF⟩ := hrun
  have hE := (C75_two_players hwf hbm hdm hl h100 hfew _ _).2 hF
  constructor
  · obtain ⟨stopped, h1, h2⟩ := C81_release_all hcb' hE
    rw [h2 hcb] at h1
    exact ⟨_, _, h1⟩
  · intro e calls he
    match e, he with
    | .panicked, he => exact absurd he (C81_release_no_panic hwf hbm hdm hR hcb')
    | .returned (.ok r'), he => exact ⟨r', rfl, hval _ _ _ ((C75_two_players hwf hbm hdm hl h100 hfew _ _).1 (C81_release_returned he))⟩
    | .returned (.error err), he =>
      have h1 := (C63_errors err calls).1 ((C75_two_players hwf hbm hdm hl h100 hfew _ _).1 (C81_release_returned he))
      exfalso
      unfold ExactEquityF at hF
      unfold ExactEquity at h1
      split at h1
      · rename_i heq
        rw [heq] at hF
        simp at hF
      · simp at h1

/-- The problem of that test is within the limits, so that the theorems above apply to it. -/
example {R0 R1 : List WHand} (h0 : R0 = aces.map toHole) (h1 : R1 = allHands) : Playable [R0, R1] [47, 44, 45, 4] [] := by
  have hp : Problem asciiLower ["AA".toList, "random".toList] "KdKsKh3s".toList "".toList [R0, R1] [47, 44, 45, 4] [] := by
    rw [h0, h1]
    exact accuracy_problem
  exact two_playable hp (by decide) (by decide) (accuracy_deals (by rw [h0, h1])) (Or.inl (by rw [h0]; decide +kernel))

end Pokers
