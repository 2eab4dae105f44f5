/-
Property C29: the parameters carried from one fit to the next.
-/
import Verif.Session.Props

namespace Verif.Session
open Verif.Py Verif.EoS

/-- **C29 (the parameters carried over).**  Whatever the answers about parameters, fixed parameters and weights, a user who goes on
with the same data shows the next fit the parameters of this one if they ask for the update; otherwise the starting modulus and
volume of this fit (the modulus is tripled for a linear dimension), and its `K'` and `K''` unless the parameters come from an
earlier fit: these are replaced, `K'` by the value that a second-order equation implies, for the volume or for a linear
dimension. -/
theorem C29_carried (w : World) (sel : Str) (linear : Bool) (form : Formulation) (order : ℕ) (guess : Guess)
    (defaults : Option (Str × ℕ)) {s s1 s2 rest : List Str} {entered : Pars} {fixed : List ℕ} {weights : Bool × Bool}
    (h1 : setParameters w guess.pars s = .ok (entered, s1)) (h2 : setFixed s1 = .ok (fixed, s2))
    (update change : Bool) (h3 : setWeights w sel s2 = .ok (weights, yn update :: c!"y" :: yn change :: rest)) :
    ∃ (r : Record) (g : Guess), step w (.fit sel linear form order guess defaults) s =
        .ok ((if change then .eos sel linear (some g) defaults else .fit sel linear form order g defaults, [r]), rest) ∧
      r.shown = guess.pars ∧ r.entered = entered ∧ r.fixed = fixed ∧ (r.sigmaP, r.sigmaV) = weights ∧
      (update = true → g.pars = w.beta sel form order linear r.setup weights.1 weights.2 ∧ g.isArray = true) ∧
      (update = false → g.isArray = guess.isArray ∧ g.pars.V0 = entered.V0 ∧
        g.pars.K0 = (if linear then 3 * entered.K0 else entered.K0) ∧
        (guess.isArray = false → g.pars.Kp = entered.Kp ∧ g.pars.Kpp = entered.Kpp) ∧
        (guess.isArray = true → ∀ V, g.pars = (eos form r.setup.p0 V order linear true).2 ∧
          g.pars.Kp = if order = 2 then ((if linear then impliedKpLinear form else impliedKp form).getD entered.Kp)
            else entered.Kp)) := by
  have hp0 : (fitSetup (w.guess sel) (some entered) weights.2 weights.1 order linear (some fixed)).p0 =
      ⟨if linear then 3 * entered.K0 else entered.K0, entered.Kp, entered.Kpp, entered.V0⟩ := by
    cases linear
    · rfl
    · simp only [fitSetup, if_true]
      rw [mul_comm]
  refine ⟨⟨sel, form, order, linear, guess.pars, entered, fixed, weights.1, weights.2,
    fitSetup (w.guess sel) (some entered) weights.2 weights.1 order linear (some fixed)⟩,
    if update then ⟨w.beta sel form order linear
      (fitSetup (w.guess sel) (some entered) weights.2 weights.1 order linear (some fixed)) weights.1 weights.2, true⟩
    else ⟨if guess.isArray then parsAfter form
      (fitSetup (w.guess sel) (some entered) weights.2 weights.1 order linear (some fixed)).p0 order linear true
      else (fitSetup (w.guess sel) (some entered) weights.2 weights.1 order linear (some fixed)).p0, guess.isArray⟩,
    ?_, rfl, rfl, rfl, rfl, ?_, ?_⟩
  · have hy : ∀ d r, confirm d (c!"y" :: r) = .ok (true, r) := fun d r => rfl
    simp only [step, fitStep, bind_eq, h1, h2, h3, confirm_yn]
    cases update <;> cases change <;> simp only [if_true, Bool.false_eq_true, if_false, pure_eq, bind_eq, hy, confirm_yn]
  · rintro rfl
    exact ⟨rfl, rfl⟩
  · rintro rfl
    simp only [Bool.false_eq_true, if_false, hp0]
    refine ⟨trivial, ?_, ?_, ?_, ?_⟩
    · cases guess.isArray
      · rfl
      · cases form <;> simp only [if_true, parsAfter, setKpp, setKp] <;> split_ifs <;> rfl
    · cases guess.isArray
      · rfl
      · cases form <;> simp only [if_true, parsAfter, setKpp, setKp] <;> split_ifs <;> rfl
    · intro hg
      simp [hg]
    · intro hg V
      simp only [hg, if_true]
      refine ⟨rfl, ?_⟩
      cases linear <;> by_cases ho : order = 2 <;> cases form <;> simp [parsAfter, setKpp, setKp, ho] <;> split_ifs <;> rfl

end Verif.Session
