import Verif.Proofs.Progress
/-!
# The progress values sent by the threads
-/
namespace Pokers

theorem castU8_mono {x y : ℚ} (h : x ≤ y) : castU8 x ≤ castU8 y := by
  unfold castU8
  have := Int.floor_le_floor h
  omega

theorem castU8_hundred : castU8 100 = 100 := by
  unfold castU8
  have : ⌊(100 : ℚ)⌋ = 100 := by exact_mod_cast Int.floor_natCast (R := ℚ) 100
  rw [this]
  decide

theorem progressExact_mono {a b total : Nat} (h : a ≤ b) : progressExact a total ≤ progressExact b total := by
  unfold progressExact
  apply castU8_mono
  have h1 : (a : ℚ) ≤ b := by exact_mod_cast h
  have h2 : (0 : ℚ) ≤ total := by exact_mod_cast Nat.zero_le total
  have := div_le_div_of_nonneg_right h1 h2
  exact mul_le_mul_of_nonneg_right this (by norm_num)

theorem progressExact_full {total : Nat} (h : 0 < total) : progressExact total total = 100 := by
  unfold progressExact
  have : (total : ℚ) ≠ 0 := by exact_mod_cast h.ne'
  rw [div_self this, one_mul, castU8_hundred]

/-- What holds for the progress values in every reachable state. -/
structure SentInv (total nT : Nat) (w : World) : Prop where
  sorted : w.shared.sent.Pairwise (· ≤ ·)
  le : ∀ x ∈ w.shared.sent, x ≤ progressExact w.shared.enumPos total
  done : ∀ t < nT, (w.locals t).pc = .done → w.shared.sent ≠ []
  last : ∀ t < nT, (w.locals t).pc = .done → w.shared.stopped = false → w.shared.sent.getLast? = some 100

variable {s : Sim} {ds : List DividerU64} {total size nT : Nat} {c : Nat → FT} {r0 : Results}

theorem SentInv.steps (hp : Processes s ds total c) (hsize : 0 < size) (htot : 0 < total) {cancelled : Bool} {w : World}
    (h : Steps s ds total size nT (World.init s r0 cancelled) w) : SentInv total nT w := by
  induction h with
  | refl =>
    refine ⟨List.Pairwise.nil, fun x hx => by simp [World.init] at hx, fun t _ hd => ?_, fun t _ hd => ?_⟩ <;>
    · simp [World.init, Local.init] at hd
  | step hs hstep ih =>
    obtain ⟨hist, Dr, A, Dl, hI⟩ := Inv.steps hp hsize hs
    obtain ⟨hist', Dr', A', Dl', hI'⟩ := Inv.steps hp hsize (.step hs hstep)
    cases hstep with
    | cancel => exact ⟨ih.sorted, ih.le, ih.done, fun t _ _ hst => by cases hst⟩
    | thread t ht hpc =>
      rename_i w
      have upd : ∀ (l l' : Local), w.locals t = l → l'.pc = .check ∨ l'.pc = .done →
          (l'.pc = .done → w.shared.enumPos = total ∨ w.shared.stopped = true) →
          SentInv total nT { locals := Function.update w.locals t l', shared := w.shared.update s total l } := by
        intro l l' hl hpc' hd
        have hsent : (w.shared.update s total l).sent = w.shared.sent ++ [progressExact w.shared.enumPos total] := rfl
        have henum : (w.shared.update s total l).enumPos = w.shared.enumPos := rfl
        refine ⟨?_, ?_, ?_, ?_⟩
        · simp only [hsent, List.pairwise_append, List.pairwise_singleton, true_and]
          refine ⟨ih.sorted, fun x hx y hy => ?_⟩
          rw [List.mem_singleton] at hy
          subst hy
          exact ih.le x hx
        · simp only [hsent, henum, List.mem_append, List.mem_singleton]
          rintro x (hx | rfl)
          · exact ih.le x hx
          · exact le_rfl
        · intro u hu _
          simp [hsent]
        · intro u hu hud hst
          have hst' : w.shared.stopped = false := hst
          have he : w.shared.enumPos = total := by
            by_cases hut : u = t
            · subst hut
              simp only [Function.update_self] at hud
              rcases hd hud with h | h
              · exact h
              · rw [h] at hst'; cases hst'
            · simp only [Function.update_of_ne hut] at hud
              rcases hI.fin u hu (Or.inr hud) with h | h
              · exact h
              · rw [h] at hst'; cases hst'
          simp only [hsent, List.getLast?_append, List.getLast?_singleton, he, progressExact_full htot]
          rfl
      have same : ∀ (l' : Local) (e : Nat), w.shared.enumPos ≤ e → l'.pc ≠ .done →
          SentInv total nT { locals := Function.update w.locals t l', shared := { w.shared with enumPos := e } } := by
        intro l' e he hpc'
        refine ⟨ih.sorted, fun x hx => (ih.le x hx).trans (progressExact_mono he), ?_, ?_⟩
        · intro u hu hud
          by_cases hut : u = t
          · subst hut
            simp only [Function.update_self] at hud
            exact absurd hud hpc'
          · simp only [Function.update_of_ne hut] at hud
            exact ih.done u hu hud
        · intro u hu hud hst
          by_cases hut : u = t
          · subst hut
            simp only [Function.update_self] at hud
            exact absurd hud hpc'
          · simp only [Function.update_of_ne hut] at hud
            exact ih.last u hu hud hst
      have same' : ∀ (l' : Local), l'.pc ≠ .done → SentInv total nT { locals := Function.update w.locals t l', shared := w.shared } :=
        fun l' h => same l' w.shared.enumPos le_rfl h
      have hadv : ∀ l : Local, l.advance.pc ≠ .done := by
        intro l
        rcases advance_pc l with h | h <;> rw [h] <;> decide
      have hin := hI.inside t ht
      have hid := hI.ids t ht
      have hfin := hI.fin t ht
      generalize hl : w.locals t = l at hpc hin hid hfin ⊢
      unfold threadStep
      cases hc : l.pc with
      | done => exact absurd hc hpc.1
      | panicked => exact absurd hc hpc.2
      | reserve =>
        simp only
        cases hf : fits 64 (w.shared.enumPos + size) with
        | none => exact same' _ (by simp)
        | some e =>
          simp only
          have hse : w.shared.enumPos + size = e := by
            unfold fits at hf
            split at hf
            · exact Option.some.inj hf
            · cases hf
          have := hI.le
          refine same _ (min total e) (by omega) ?_
          simp only
          split <;> simp
      | work =>
        obtain ⟨hlt, hst⟩ := hin (Or.inl hc)
        obtain ⟨st', h1, _, h3⟩ := hp l.pos (by omega) (l.stats, l.hands) hid
        simp only [h1]
        split
        · exact same' _ (by simp)
        · exact same' _ (hadv _)
      | flush => exact upd l _ hl (Or.inl rfl) (fun h => by cases h)
      | check =>
        simp only
        split
        · exact same' _ (by simp)
        · exact same' _ (hadv _)
      | final => exact upd l _ hl (Or.inr rfl) (fun _ => hfin (Or.inl hc))

end Pokers
