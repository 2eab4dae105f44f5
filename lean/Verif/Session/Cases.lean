/-
The theorems about the interactive session applied to a concrete world and concrete answers.
-/
import Verif.Session.Carried

namespace Verif.Session.Cases
open Verif.Py Verif.EoS Verif.Session Spec

example := C28_fixed ⟨160, 4, 0, 75⟩ none true false 2 (.inl rfl) false
example := C28_session_violated sample (by simp [sample]) (by simp [sample]) (by simp [sample]) (by simp [sample])
example := C29_history_violated sample (by simp [sample]) (by simp [sample]) (by simp [sample]) 5

/-- Two fits: volumes with a typed modulus, then the `a` axis. -/
def answers : List Str := [c!"x", c!"v", c!"9", c!"2", c!"3"] ++ [c!"y", c!"5", [], [], [], [], [], []] ++
  [c!"y", c!"a", [], []] ++ [[], [], [], []]

theorem two_fits : (session sample 7 answers).map (fun r => (r.sel, r.entered.K0, r.setup.p0.K0)) =
    [(c!"v", 5, 5), (c!"a", 160, 480)] := by
  simp [answers, sample, session, exec, step, selectData, selectEos, eosResult, setEos, setEosOrder, fitStep,
    setParameters, askFloat, setFixed, setWeights, confirm, choose, chosen, ask, promptValue, bind_eq,
    pure_eq, dataTypes, eosFunctions, eosOrders, List.lookup, strip, lower, fitSetup]
  norm_num

/-- The second fit is axial and does not start from what was shown. -/
example : ∃ r ∈ session sample 7 answers, r.sel = c!"a" ∧ r.setup.p0 ≠ r.entered ∧ r.setup.fix.length = 4 ∧
    (r.entered = r.shown ∨ Edited sample r.shown.K0 r.entered.K0) := by
  have h : (c!"a", (160 : ℝ), (480 : ℝ)) ∈ (session sample 7 answers).map (fun r => (r.sel, r.entered.K0, r.setup.p0.K0)) := by
    rw [two_fits]; simp
  obtain ⟨r, hr, he⟩ := List.mem_map.1 h
  simp only [Prod.mk.injEq] at he
  refine ⟨r, hr, he.1, (C29_axial_violated sample 7 answers r hr (by rw [he.1]; decide)).2 (by rw [he.2.1]; norm_num),
    (C30_session sample 7 answers r hr).2.2.2.2.2.2.1, ?_⟩
  rcases (C29_starting_parameters_partial sample 7 answers r hr).2 with h | h
  · exact .inl h
  · exact .inr h.1

/-- After the choice of a formulation the fit shows the guess. -/
example : ∃ st1 st2 s1 s2 rs2, step sample (.eos c!"v" false none none) ([[], []] ++ [[], [], [], []]) = .ok ((st1, []), s1) ∧
    step sample st1 s1 = .ok ((st2, rs2), s2) ∧ rs2 ≠ [] ∧ ∀ r ∈ rs2, r.shown = sample.guess c!"v" := by
  have h1 : step sample (.eos c!"v" false none none) ([[], []] ++ [[], [], [], []]) =
      .ok ((.fit c!"v" false .murnaghan 3 ⟨sample.guess c!"v", false⟩ (some (c!"1", 3)), []), [[], [], [], []]) := by
    simp [step, selectEos, eosResult, setEos, setEosOrder, choose, chosen, ask, promptValue, bind_eq,
      pure_eq, eosFunctions, eosOrders, List.lookup]
  obtain ⟨⟨⟨st2, rs2⟩, s2⟩, h2, hne⟩ : ∃ p, step sample
      (.fit c!"v" false .murnaghan 3 ⟨sample.guess c!"v", false⟩ (some (c!"1", 3))) [[], [], [], []] = .ok p ∧ p.1.2 ≠ [] := by
    simp [sample, step, fitStep, setParameters, askFloat, setFixed, setWeights, confirm, ask, bind_eq, pure_eq, strip, lower]
  exact ⟨_, st2, _, s2, rs2, h1, h2, hne, fun r hr =>
    ((C29_shown sample c!"v" false none none _ _ _ _ _ _ _ h1 h2).2 r hr).2.2⟩

/-- A choice that reads two lines. -/
example := C30_progress sample (.eos c!"v" false none none) _ (by simp) ([[], []] ++ [[], [], [], []]) _ _
  (show step sample (.eos c!"v" false none none) ([[], []] ++ [[], [], [], []]) =
      .ok ((.fit c!"v" false .murnaghan 3 ⟨sample.guess c!"v", false⟩ (some (c!"1", 3)), []), [[], [], [], []]) by
    simp [step, selectEos, eosResult, setEos, setEosOrder, choose, chosen, ask, promptValue, bind_eq,
      pure_eq, eosFunctions, eosOrders, List.lookup])

/-- A parameter that is not a number stops the session. -/
example := C30_no_failures sample (.fit c!"v" false .murnaghan 3 ⟨sample.guess c!"v", false⟩ none) [c!"y", c!"five"]
  (.crash .valueError) (by
    simp [sample, step, fitStep, setParameters, askFloat, confirm, ask, bind_eq, strip, lower])

/-- The default answers after the data were chosen. -/
example : ∃ f o, selectEos sample none ([] :: [] :: []) = .ok ((f, o, (c!"1", 3)), []) ∧ o ∈ supported f := by
  obtain ⟨f, o, h1, h2, -⟩ := C30_defaults sample 1 [c!"a"] c!"a" true none none [] (by
    simp [sample, exec, step, selectData, choose, chosen, ask, promptValue, bind_eq, pure_eq, dataTypes]) []
  exact ⟨f, o, h1, h2⟩

/-- A world with uncertainties of pressures and volumes. -/
noncomputable def weighted : World := { sample with avail := fun _ => true }

example := C30_return weighted c!"a" (by decide) rfl 12 (by norm_num)
example := C30_one_fit weighted c!"v" false .murnaghan 3 ⟨weighted.guess c!"v", false⟩ none rfl rfl (fun _ => c!"5") (fun _ => 5)
  (fun _ => ⟨by decide, by simp [weighted, sample]⟩) ![false, true, false, true] true false true []

/-- A second-order axial fit that starts from the parameters of an earlier one, with a typed modulus: the next fit shows three
times this modulus and `K' = 12`. -/
example : ∃ (r : Record) (g : Guess),
    step sample (.fit c!"a" true .birchMurnaghan 2 ⟨⟨160, 4, 0, 75⟩, true⟩ none)
      ([c!"y", c!"5", [], [], [], [], c!"n", c!"y", c!"n"] ++ [c!"n"]) =
        .ok ((.fit c!"a" true .birchMurnaghan 2 g none, [r]), [c!"n"]) ∧ g.pars.K0 = 15 ∧ g.pars.Kp = 12 := by
  obtain ⟨r, g, h, -, -, -, -, -, h2⟩ := C29_carried sample c!"a" true .birchMurnaghan 2 ⟨⟨160, 4, 0, 75⟩, true⟩ none
    (s := [c!"y", c!"5", [], [], [], [], c!"n", c!"y", c!"n"] ++ [c!"n"]) (entered := ⟨5, 4, 0, 75⟩) (fixed := [1, 1, 1, 1])
    (weights := (false, false)) (s1 := [[], c!"n", c!"y", c!"n", c!"n"]) (s2 := [c!"n", c!"y", c!"n", c!"n"])
    (by simp [sample, setParameters, askFloat, confirm, ask, bind_eq, pure_eq, strip, lower])
    (by simp [setFixed, confirm, ask, bind_eq, pure_eq, strip, lower]) false false (rest := [c!"n"])
    (by simp [sample, setWeights, yn, bind_eq, pure_eq])
  obtain ⟨-, -, h3, -, h4⟩ := h2 rfl
  refine ⟨r, g, h, ?_, ?_⟩
  · rw [h3]
    norm_num
  · rw [(h4 rfl 1).2]
    norm_num [impliedKpLinear]

end Verif.Session.Cases
