{"id": "C01", "title": "Temperature conversion is a consistent family of bijections", "statement": "convert_temperature accepts exactly the documented scale names (case-insensitively) and raises for any other name; converting from scale A to B and back returns the original value, converting A to B to C equals converting A to C, and converting to the same scale is the identity.", "quantifier": "every real value and every triple of scale names, accepted or not", "why_tests_cant": "infinitely many values and names; a test fixes a handful of numbers and spellings", "anchors": ["quantas/utils/physics/units.py:convert_temperature"]}
{"id": "C02", "title": "Energy conversion is a consistent family of bijections and accepts the documented names", "statement": "convert_energy round-trips, composes and is linear for every pair of accepted scales, rejects every other name, and accepts every scale name its documentation lists (hartree, electron volt, rydberg, kj/mol and abbreviations).", "quantifier": "every real value and every triple of scale names", "why_tests_cant": "infinitely many values; the set of accepted spellings can only be settled by the code's own comparison logic", "anchors": ["quantas/utils/physics/units.py:convert_energy"]}
{"id": "C03", "title": "Pressure conversion is a consistent family of bijections", "statement": "convert_pressure round-trips, composes, is linear and strictly increasing for every pair of accepted scales, and rejects every other name.", "quantifier": "every real value and every triple of scale names", "why_tests_cant": "infinitely many values and names", "anchors": ["quantas/utils/physics/units.py:convert_pressure"]}
{"id": "C04", "title": "Frequency, length and volume conversions are consistent", "statement": "convert_frequency, convert_lenght and convert_volume round-trip, compose and reject unknown names, and converting a cube's volume agrees with cubing the converted edge length.", "quantifier": "every real value and every triple of scale names", "why_tests_cant": "infinitely many values and names; the cross-function law ties two functions together for all inputs", "anchors": ["quantas/utils/physics/units.py:convert_frequency", "quantas/utils/physics/units.py:convert_lenght", "quantas/utils/physics/units.py:convert_volume"]}
{"id": "C05", "title": "Energy density and pressure conversions are mutually inverse and unit-consistent", "statement": "pressure_to_energy undoes energy_to_pressure for the same scales, and the result of energy_to_pressure does not depend on the units used to express the same physical energy and volume (it commutes with convert_energy, convert_volume and convert_pressure).", "quantifier": "every real value and every combination of energy, volume and pressure scale names", "why_tests_cant": "the commuting squares range over all values and all scale combinations", "anchors": ["quantas/utils/physics/units.py:energy_to_pressure", "quantas/utils/physics/units.py:pressure_to_energy"]}
{"id": "C06", "title": "Unit converters leave their argument unchanged", "statement": "Calling any unit converter on an array returns a new value and leaves the caller's array as it was, whether or not the call raises.", "quantifier": "every array of values, every combination of scale names, including names that make the call fail", "why_tests_cant": "aliasing is a property of the heap after the call for all inputs, including error exits", "anchors": ["quantas/utils/physics/units.py:energy_to_pressure", "quantas/utils/physics/units.py:pressure_to_energy", "quantas/utils/physics/units.py:convert_energy", "quantas/utils/physics/units.py:convert_pressure"]}
{"id": "C07", "title": "Harmonic functions satisfy F = U - TS", "statement": "For every set of phonon frequencies, weights and temperatures, the vibrational free energy returned equals zero-point energy + thermal energy - T*S/1000, including at T = 0 and for non-positive frequencies.", "quantifier": "all frequency arrays of any size, all weights, all temperatures T >= 0", "why_tests_cant": "an identity over real-valued inputs and arrays of unbounded size", "anchors": ["quantas/utils/physics/statistical_mechanics.pyx:vibrational_free_energy", "quantas/utils/physics/statistical_mechanics.pyx:entropy", "quantas/utils/physics/statistical_mechanics.pyx:thermal_energy", "quantas/utils/physics/statistical_mechanics.pyx:zero_point_energy"]}
{"id": "C08", "title": "Entropy and heat capacity are the temperature derivatives", "statement": "At every T > 0 the entropy returned is -dF/dT (with the J/kJ factor) and the isochoric heat capacity is dU/dT, and also T*dS/dT.", "quantifier": "all frequency arrays, all weights, all T > 0", "why_tests_cant": "derivatives are limits; tests can only compare finite differences to a tolerance", "anchors": ["quantas/utils/physics/statistical_mechanics.pyx:ho_S", "quantas/utils/physics/statistical_mechanics.pyx:ho_F", "quantas/utils/physics/statistical_mechanics.pyx:ho_eth", "quantas/utils/physics/statistical_mechanics.pyx:ho_Cv"]}
{"id": "C09", "title": "Physical bounds of the harmonic functions", "statement": "With non-negative weights: zero-point energy, thermal energy and entropy are non-negative, heat capacity lies between 0 and the Dulong-Petit value (NA*kB per weighted mode), thermal energy is at most the classical value, and F never exceeds the zero-point energy.", "quantifier": "all frequency arrays, all non-negative weights, all T >= 0", "why_tests_cant": "inequalities over all reals; sampling cannot exclude a violating point", "anchors": ["quantas/utils/physics/statistical_mechanics.pyx:ho_zpe", "quantas/utils/physics/statistical_mechanics.pyx:ho_eth", "quantas/utils/physics/statistical_mechanics.pyx:ho_S", "quantas/utils/physics/statistical_mechanics.pyx:ho_F", "quantas/utils/physics/statistical_mechanics.pyx:ho_Cv"]}
{"id": "C10", "title": "Low and high temperature limits", "statement": "As T decreases to 0, thermal energy, entropy and heat capacity tend to 0 and F tends to the zero-point energy, matching the values returned at exactly T = 0; as T grows, the heat capacity of each positive mode tends to NA*kB.", "quantifier": "all positive frequencies; the limit over T", "why_tests_cant": "limits cannot be observed at finitely many points", "anchors": ["quantas/utils/physics/statistical_mechanics.pyx:ho_eth", "quantas/utils/physics/statistical_mechanics.pyx:ho_S", "quantas/utils/physics/statistical_mechanics.pyx:ho_F", "quantas/utils/physics/statistical_mechanics.pyx:ho_Cv"]}
{"id": "C11", "title": "Monotonicity in temperature", "statement": "For T >= 0, thermal energy, entropy and heat capacity never decrease with temperature and the free energy never increases.", "quantifier": "all frequency arrays, non-negative weights, all pairs T1 <= T2", "why_tests_cant": "quantifies over all pairs of real temperatures", "anchors": ["quantas/utils/physics/statistical_mechanics.pyx:ho_eth", "quantas/utils/physics/statistical_mechanics.pyx:ho_S", "quantas/utils/physics/statistical_mechanics.pyx:ho_F", "quantas/utils/physics/statistical_mechanics.pyx:ho_Cv"]}
{"id": "C12", "title": "Parallel loops give the same result under every schedule", "statement": "The thermodynamic kernels, whose outer temperature loop is parallel, return the same array for every order or interleaving in which the rows are computed, and each entry is the weighted sum over q-points and bands of the single-oscillator function.", "quantifier": "all schedules (permutations and interleavings) of the row tasks, all array sizes", "why_tests_cant": "schedules are unbounded and not controllable from a unit test", "anchors": ["quantas/utils/physics/statistical_mechanics.pyx:zero_point_energy", "quantas/utils/physics/statistical_mechanics.pyx:thermal_energy", "quantas/utils/physics/statistical_mechanics.pyx:entropy", "quantas/utils/physics/statistical_mechanics.pyx:vibrational_free_energy", "quantas/utils/physics/statistical_mechanics.pyx:isochoric_heat_capacity"]}
{"id": "C13", "title": "Results do not depend on how the phonon data is listed", "statement": "Reordering q-points (with their weights) or bands leaves every harmonic quantity unchanged; splitting a q-point into duplicates whose weights sum to the original leaves it unchanged; appending modes with zero or imaginary (non-positive) frequency leaves it unchanged.", "quantifier": "all frequency arrays, all weights, all permutations and splittings", "why_tests_cant": "quantifies over all permutations of arrays of unbounded size", "anchors": ["quantas/utils/physics/statistical_mechanics.pyx:thermal_energy", "quantas/utils/physics/statistical_mechanics.pyx:entropy", "quantas/utils/physics/statistical_mechanics.pyx:vibrational_free_energy", "quantas/utils/physics/statistical_mechanics.pyx:isochoric_heat_capacity"]}
{"id": "C14", "title": "Harmonic run reports mutually consistent quantities in the user's units", "statement": "After a harmonic run, for every volume and temperature the exported values satisfy Utot = U0 + Uzp + Uth, F = U0 + Fvib and F = Utot - T*S/1000 with T in kelvin, whichever energy, frequency and temperature units were selected, and the q-point weights used sum to one.", "quantifier": "all inputs, all selectable units, all temperatures with absolute T >= 0", "why_tests_cant": "ties several exported arrays together for all inputs and unit selections", "anchors": ["quantas/harmonic/harmonic.py:HACalculator.run", "quantas/IO/qha_reader.py"]}
{"id": "C15", "title": "Enthalpy and Gibbs energy are Legendre-consistent", "statement": "H - U = G - F = p*V*NA/1000 at every grid point, H and G are affine in p, and H - G equals T*S whenever U - F does.", "quantifier": "all grids, all pressures, volumes and energies", "why_tests_cant": "identities over all reals and grid sizes", "anchors": ["quantas/utils/physics/thermodynamics.pyx:enthalpy", "quantas/utils/physics/thermodynamics.pyx:gibbs"]}
{"id": "C16", "title": "Adiabatic bulk modulus, Gruneisen parameter and Cp are mutually consistent", "statement": "In the quasi-harmonic results, KS*Cv = KT*Cp, KS = KT*(1 + alpha*gamma*T) and Cp = Cv*(1 + alpha*gamma*T) wherever Cv and T are non-zero; KS = KT at T = 0 or Cv = 0; and KS >= KT, Cp >= Cv for physical inputs.", "quantifier": "all values of alpha, KT, V, T, Cv and all selectable units", "why_tests_cant": "the identities link four independently coded formulas and unit conversions for all reals", "anchors": ["quantas/utils/physics/thermodynamics.pyx:adiabatic_bulk_modulus", "quantas/utils/physics/thermodynamics.pyx:gruneisen_parameter", "quantas/qha/qha.py:QHACalculator._finalize_run"]}
{"id": "C17", "title": "Temperature and pressure grids cover the requested range", "statement": "The grid built from (min, max, step) starts at min, is evenly spaced by step, contains max when step divides the range, and contains no point above max.", "quantifier": "all real min <= max and step > 0", "why_tests_cant": "quantifies over all real ranges; the boundary behaviour depends on divisibility", "anchors": ["quantas/qha/qha.py:QHACalculator.temperature", "quantas/qha/qha.py:QHACalculator.pressure", "quantas/harmonic/harmonic.py:HACalculator.temperature"]}
{"id": "C18", "title": "Numerical differentiation grid is centred on the requested volume", "statement": "For every number of points >= 1 and spacing, the local fine grid has exactly that many evenly spaced points and the index reported as central holds the requested volume; the grid is symmetric exactly when the number of points is odd. In double precision too the volume at the reported index is exactly the requested one, and the volumes are positive, increase and are the exact ones up to 4 units of 2^-53 of the volume.", "quantifier": "all positive point counts and spacings", "why_tests_cant": "unbounded parameter; parity-dependent index arithmetic", "anchors": ["quantas/qha/qha.py:QHACalculator.fine_grid"]}
{"id": "C19", "title": "Thermal expansion by finite differences", "statement": "With at least 50 temperatures, alphaV at each temperature is the difference quotient of the volume divided by the volume, the last row repeats the previous quotient, the array has one row per temperature, and it is exact for volumes affine in temperature; with fewer than 50 temperatures alphaV, Cp-Cv and gamma are zero and KS equals KT.", "quantifier": "all volume grids of every size", "why_tests_cant": "array sizes and contents are unbounded", "anchors": ["quantas/qha/qha.py:QHACalculator._finalize_run"]}
{"id": "C20", "title": "Polynomial volume minimisation returns the equilibrium volume", "statement": "The volume returned for a pressure P is a point where dF/dV = -P with positive curvature, hence a strict local minimum of F(V) + P*V; when no such point exists the call fails rather than returning a value.", "quantifier": "all polynomials and pressures", "why_tests_cant": "quantifies over all polynomials and needs an analytic local-minimum argument", "anchors": ["quantas/utils/math/polynomials.py:find_polynomial_minimum", "quantas/qha/qha.py:QHACalculator.minimize_volume"]}
{"id": "C21", "title": "Interpolation evaluates the fitted polynomial", "statement": "multi_interpolate returns, for every row of coefficients and every abscissa, the value of that polynomial; the scalar and array code paths agree; it is linear in the coefficients.", "quantifier": "all coefficient tables, degrees and abscissae", "why_tests_cant": "unbounded table sizes and degrees", "anchors": ["quantas/utils/math/fast_math.pyx:multi_interpolate", "quantas/utils/math/polynomials.py:interpolate"]}
{"id": "C22", "title": "Goodness-of-fit figure", "statement": "multi_R2 and single_R_squared return 1 for data the polynomial reproduces exactly (when the data are not constant), are never negative, agree with each other, and equal 1 - SSres/SStot for a least-squares fit.", "quantifier": "all data sets and coefficient tables", "why_tests_cant": "quantifies over all data; the 1 - SSres/SStot identity needs orthogonality of least squares", "anchors": ["quantas/utils/math/fast_math.pyx:multi_R2", "quantas/utils/math/polynomials.py:single_R_squared"]}
{"id": "C23", "title": "Equation-of-state parameters mean what they are called (V0, K0, K')", "statement": "For every P-V formulation, order and parameter set accepted: P(V0) = 0, -V*dP/dV at V0 is K0 and dK/dP at V0 is K' (4, 2 or 1-order default for second order fits).", "quantifier": "all formulations, orders, positive V0 and K0, all K', K''", "why_tests_cant": "derivatives at a point for all parameter values; tests compare a few numbers", "anchors": ["quantas/eosfit/utils/pv_eos.py:Murnaghan.eos", "quantas/eosfit/utils/pv_eos.py:BirchMurnaghan.eos", "quantas/eosfit/utils/pv_eos.py:NaturalStrain.eos", "quantas/eosfit/utils/pv_eos.py:Vinet.eos", "quantas/eosfit/utils/pv_eos.py:Tait.eos"]}
{"id": "C24", "title": "The reported K'' is the second pressure derivative of the bulk modulus", "statement": "For fourth-order fits the K'' parameter, and for lower orders the implied K'' stored in the result, equals d2K/dP2 at zero pressure of the curve that was fitted.", "quantifier": "all formulations, orders and parameter values", "why_tests_cant": "second derivatives along the curve for all parameters", "anchors": ["quantas/eosfit/utils/pv_eos.py:BirchMurnaghan.eos", "quantas/eosfit/utils/pv_eos.py:NaturalStrain.eos", "quantas/eosfit/utils/pv_eos.py:Vinet.eos", "quantas/eosfit/utils/pv_eos.py:Tait.eos"]}
{"id": "C25", "title": "Energy-volume equations of state have their minimum at (V0, E0) with curvature K0/V0", "statement": "For each E(V) formulation, E(V0) = E0, dE/dV = 0 at V0 and V0*d2E/dV2 = K0 at V0.", "quantifier": "all four formulations and all parameter values in the domain", "why_tests_cant": "derivatives for all real parameters", "anchors": ["quantas/qha/utils/ev_eos.py:EnergyEOS"]}
{"id": "C26", "title": "Pressure from an E(V) fit is minus its volume derivative", "statement": "EnergyEOS.pressure with the parameters of an E(V) fit equals -dE/dV of that same fit at every volume.", "quantifier": "all four formulations, all parameters, all volumes V > 0", "why_tests_cant": "functional identity over all volumes", "anchors": ["quantas/qha/utils/ev_eos.py:EnergyEOS.pressure"]}
{"id": "C27", "title": "Compressed volumes give positive pressure and the pressure decreases with volume", "statement": "For K0 > 0 and physically admissible K', pressure is positive for V < V0, negative just above V0, and strictly decreasing on the compression side.", "quantifier": "all volumes and admissible parameters", "why_tests_cant": "monotonicity over a continuum", "anchors": ["quantas/eosfit/utils/pv_eos.py:Murnaghan.eos", "quantas/eosfit/utils/pv_eos.py:BirchMurnaghan.eos", "quantas/eosfit/utils/pv_eos.py:Vinet.eos", "quantas/eosfit/utils/pv_eos.py:NaturalStrain.eos"]}
{"id": "C28", "title": "Fit set-up follows the data and the order", "statement": "A fit uses orthogonal distance regression exactly when uncertainties on the volume-like variable are supplied and ordinary least squares otherwise; when no parameters are fixed by the user, exactly the parameters implied by the chosen order are held fixed.", "quantifier": "all combinations of supplied uncertainties, orders and fixed-parameter lists", "why_tests_cant": "decision table over all inputs including lists of any length", "anchors": ["quantas/eosfit/utils/pv_eos.py:EOS.fit", "quantas/eosfit/utils/pv_eos.py:EOS.check"]}
{"id": "C29", "title": "Repeated fits start from the displayed parameters", "statement": "In an interactive session the starting parameters used by a fit are those shown to (and possibly edited by) the user, for any number of previous fits in the session.", "quantifier": "all session histories: sequences of fits, edits, EoS changes and data selections", "why_tests_cant": "the defect appears only along histories of operations", "anchors": ["quantas/eosfit/utils/pv_eos.py:EOS.fit", "quantas/eosfit/eosfit.py:EoSFitCalculator.run"]}
{"id": "C30", "title": "Interactive selections are always valid", "statement": "For every stream of answers, the EoS formulation, order and data set selected are among the offered ones, the order is supported by the formulation, only data present in the input can be selected, and invalid answers are re-asked.", "quantifier": "all infinite or finite answer streams", "why_tests_cant": "unbounded interaction sequences", "anchors": ["quantas/eosfit/utils/interactive.py:choose", "quantas/eosfit/utils/interactive.py:set_eos_order", "quantas/eosfit/utils/interactive.py:select_data"]}
{"id": "C31", "title": "Stiffness and compliance tensors are inverse and fully symmetric", "statement": "The fourth-rank tensors built from the 6x6 matrices have minor and (for symmetric input) major symmetry, and contracting stiffness with compliance gives the identity on symmetric tensors.", "quantifier": "all invertible 6x6 matrices", "why_tests_cant": "quantifies over all real matrices", "anchors": ["quantas/soec/utils/soec_obj.py:SOEC.C_ijkl", "quantas/soec/utils/soec_obj.py:SOEC.S_ijkl", "quantas/seismic/utils/seismic_obj.py:Seismic.C_ijkl"]}
{"id": "C32", "title": "Young's modulus and linear compressibility are the directional response of the compliance", "statement": "Young's modulus along a direction is the ratio of uniaxial stress to axial strain, linear compressibility is minus the strain per unit hydrostatic pressure (x1000), both are unchanged by reversing the direction, and for an isotropic matrix they do not depend on direction.", "quantifier": "all compliance matrices and all directions", "why_tests_cant": "continuum of directions and matrices", "anchors": ["quantas/soec/utils/soec_obj.py:SOEC.young_modulus", "quantas/soec/utils/soec_obj.py:SOEC.linear_compressibility"]}
{"id": "C33", "title": "Shear modulus and Poisson's ratio are the directional response of the compliance", "statement": "Shear modulus for a pair of orthogonal directions is shear stress over engineering shear strain, Poisson's ratio is minus transverse over axial strain; the shear modulus is symmetric in the two directions and E_a*nu reciprocity S-symmetry holds (nu_ab/E_a = nu_ba/E_b).", "quantifier": "all compliance matrices and all orthonormal direction pairs", "why_tests_cant": "continuum of directions and matrices", "anchors": ["quantas/soec/utils/soec_obj.py:SOEC.shear_modulus", "quantas/soec/utils/soec_obj.py:SOEC.poisson_ratio"]}
{"id": "C34", "title": "The orthorhombic fast path computes the same numbers as the generic path", "statement": "For a matrix classified orthorhombic or higher with orthorhombic form, the closed-form Young's modulus, linear compressibility, shear modulus and Poisson's ratio equal the generic tensor contractions in every direction.", "quantifier": "all orthorhombic-form compliance matrices and all angles", "why_tests_cant": "continuum of directions and matrices; polynomial identities", "anchors": ["quantas/soec/utils/soec_obj.py:SOECOrtho"]}
{"id": "C35", "title": "Direction vectors are orthonormal", "statement": "For all angles, the first direction has unit length, the second direction built with the third angle has unit length and is orthogonal to the first, and the three modules' direction functions agree.", "quantifier": "all real angles theta, phi, chi", "why_tests_cant": "continuum of angles", "anchors": ["quantas/soec/utils/soec_obj.py:vector", "quantas/seismic/utils/seismic_obj.py:vector", "quantas/utils/math/fast_math.pyx:vector"]}
{"id": "C36", "title": "Voigt-Reuss-Hill averages are ordered and consistent", "statement": "For positive definite stiffness the Reuss bulk and shear moduli never exceed the Voigt ones and Hill lies between; each scheme's Young modulus and Poisson ratio satisfy E = 9KG/(3K+G), nu = (3K-2G)/(2(3K+G)) and E = 2G(1+nu); for an isotropic matrix the three schemes coincide.", "quantifier": "all positive definite 6x6 matrices", "why_tests_cant": "matrix inequality over all positive definite matrices", "anchors": ["quantas/soec/utils/soec_obj.py:SOEC.averages", "quantas/seismic/utils/seismic_obj.py:Seismic.bulk_modulus", "quantas/seismic/utils/seismic_obj.py:Seismic.shear_modulus"]}
{"id": "C37", "title": "The two Christoffel implementations agree", "statement": "The Christoffel matrix of the elastic module (divergence operator form) and of the seismic module (tensor contraction form) describe the same eigenvalue problem: same matrix up to the unit factor, symmetric for symmetric stiffness, positive definite for positive definite stiffness, hence the same phase velocities in km/s.", "quantifier": "all stiffness matrices, densities and directions", "why_tests_cant": "continuum of matrices and directions; cross-module identity", "anchors": ["quantas/soec/utils/soec_obj.py:SOEC.phase_velocity", "quantas/seismic/utils/seismic_obj.py:Seismic.spherical_direction", "quantas/seismic/utils/seismic_obj.py:Seismic.phase_velocity"]}
{"id": "C38", "title": "Isotropic media have direction-independent wave velocities", "statement": "For an isotropic stiffness matrix the phase velocities in every direction are sqrt(G/rho) twice and sqrt((K+4G/3)/rho), equal to the reported isotropic velocities.", "quantifier": "all isotropic matrices, densities, directions", "why_tests_cant": "continuum of directions", "anchors": ["quantas/seismic/utils/seismic_obj.py:Seismic.isotropic_velocity", "quantas/soec/utils/soec_obj.py:SOEC.isotropic_velocities", "quantas/seismic/utils/seismic_obj.py:Seismic.solve"]}
{"id": "C39", "title": "Group velocity projects onto the phase velocity", "statement": "For each wave mode with non-zero phase velocity the group velocity satisfies q.v_g = v_p, |v_g| >= |v_p|, and the cosine of the power-flow angle is v_p/|v_g|.", "quantifier": "all stiffness matrices, densities, directions and eigenpairs", "why_tests_cant": "continuum of inputs", "anchors": ["quantas/seismic/utils/seismic_obj.py:Seismic.solve_group"]}
{"id": "C40", "title": "Christoffel gradient and Hessian are exact derivatives", "statement": "The gradient returned is the derivative of the Christoffel matrix with respect to the direction and the constant Hessian tensor is its second derivative; the eigenvalue gradient is the Hellmann-Feynman expression.", "quantifier": "all stiffness tensors and directions", "why_tests_cant": "derivatives over a continuum", "anchors": ["quantas/seismic/utils/seismic_obj.py:Seismic.grad_M", "quantas/seismic/utils/seismic_obj.py:Seismic.hessian_christoffel_matrix"]}
{"id": "C41", "title": "Cached wave data always belongs to the current direction", "statement": "For every sequence of direction changes, explicit solves and property reads, each property returns the value computed from the most recently set direction and never data of an earlier direction.", "quantifier": "all operation histories", "why_tests_cant": "stale-cache defects need particular operation orders", "anchors": ["quantas/seismic/utils/seismic_obj.py:Seismic.spherical_direction", "quantas/seismic/utils/seismic_obj.py:Seismic.cartesian_direction", "quantas/seismic/utils/seismic_obj.py:Seismic.clear", "quantas/seismic/utils/seismic_obj.py:Seismic.eigenval", "quantas/seismic/utils/seismic_obj.py:Seismic.group_velocity"]}
{"id": "C42", "title": "Direction angles are consistent between spherical and Cartesian entry", "statement": "After setting a direction by Cartesian components, the stored theta and phi are the spherical angles of the normalised direction, i.e. feeding them back to spherical_direction gives the same direction.", "quantifier": "all non-zero vectors", "why_tests_cant": "continuum of vectors", "anchors": ["quantas/seismic/utils/seismic_obj.py:Seismic.cartesian_direction", "quantas/seismic/utils/seismic_obj.py:Seismic.solve_group"]}
{"id": "C43", "title": "The angular scan fills every row once with the matching node", "statement": "A seismic run writes row theta*nphi+phi of each result table exactly once with the data of that grid node, the polar angles run from 0 to pi/2 and the azimuths from 0 to 2*pi inclusive, and the plot reader recovers ntheta and nphi from the exported table.", "quantifier": "all ntheta, nphi >= 2", "why_tests_cant": "unbounded grid sizes and index arithmetic", "anchors": ["quantas/seismic/seismic.py:SeismicCalculator.run", "quantas/seismic/utils/seismic_plotter.py:SeismicPlotter.read_data"]}
{"id": "C44", "title": "Symmetry classification is total, sound and most specific", "statement": "For every symmetric matrix the classifier returns a class; the matrix satisfies the equalities that define the reported class within the tolerance; and no class listed earlier fits.", "quantifier": "all symmetric 6x6 real matrices", "why_tests_cant": "continuum of matrices", "anchors": ["quantas/soec/utils/symmetry.py:check_symmetry", "quantas/soec/utils/symmetry.py:run_check"]}
{"id": "C45", "title": "Mechanically unstable matrices are refused", "statement": "A stiffness matrix with a non-positive eigenvalue makes the elastic analysis stop with an error and no results.", "quantifier": "all symmetric matrices with a non-positive eigenvalue", "why_tests_cant": "continuum of matrices", "anchors": ["quantas/soec/soec.py:SOECCalculator.run"]}
{"id": "C46", "title": "Reported extremal axes realise the reported extremal values", "statement": "For each directional property, evaluating the property at the reported first (and second) axes reproduces the reported minimum and maximum, and the anisotropy is their ratio.", "quantifier": "all matrices and all properties", "why_tests_cant": "quantifies over all matrices and optimiser outputs", "anchors": ["quantas/soec/soec.py:SOECCalculator.directional_variation"]}
{"id": "C47", "title": "The elastic reader returns the symmetric matrix written in the file", "statement": "A file with the full matrix, its upper triangle or its lower triangle (with or without title line) yields the same symmetric 6x6 matrix; any other shape or a non-numeric entry yields an error and never completed data.", "quantifier": "all matrices, all whitespace layouts, all titles", "why_tests_cant": "unbounded text inputs", "anchors": ["quantas/IO/soec_reader.py:SOECInputFileReader.load"]}
{"id": "C48", "title": "Each elastic input is read independently of earlier reads", "statement": "The data returned by a reader depends only on the file it was given, for any history of earlier reads in the same process.", "quantifier": "all sequences of files read", "why_tests_cant": "defect depends on history, not on a single input", "anchors": ["quantas/IO/soec_reader.py:SOECInputFileReader", "quantas/interfaces/crystal.py:CrystalSOECReader", "quantas/interfaces/vasp.py:VASPSOECReader", "quantas/IO/eos_reader.py:EoSInputFileReader"]}
{"id": "C49", "title": "Generated elastic inputs can be read back", "statement": "Reading the file produced by the elastic input generator returns the same title and density, and every modulus to the printed precision (exactly when it has at most four decimals).", "quantifier": "all symmetric matrices, densities and titles", "why_tests_cant": "round trip through text formatting and parsing for all values", "anchors": ["quantas/IO/soec_writer.py:SOECInputCreator.write", "quantas/IO/soec_reader.py:SOECInputFileReader.load"]}
{"id": "C50", "title": "The EoS reader assigns every column to the quantity named in FORMAT", "statement": "For every FORMAT line and DATA block, each named quantity gets exactly the numbers of its column in file order, comment lines are ignored wherever they stand in the data, and a file without a FORMAT before DATA gives an error.", "quantifier": "all column orders, numbers of rows, comment placements", "why_tests_cant": "unbounded text inputs", "anchors": ["quantas/IO/eos_reader.py:EoSInputFileReader.load", "quantas/IO/eos_reader.py:EoSInputFileReader.set_data_format", "quantas/IO/eos_reader.py:EoSInputFileReader.set_data"]}
{"id": "C51", "title": "Every accepted FORMAT spelling fills the quantity it stands for", "statement": "Each alias accepted for a quantity in the FORMAT line stores the column where the corresponding reader property finds it.", "quantifier": "all accepted aliases and all data", "why_tests_cant": "must hold for each alias in combination with all others and all data", "anchors": ["quantas/IO/eos_reader.py:EoSInputFileReader.set_data_format"]}
{"id": "C52", "title": "The phonon input reader preserves the data layout", "statement": "For every complete input, the frequency array has one entry per q-point, band and volume holding exactly the number given, weights are attached to their q-points, and an input lacking volume, energy or phonon data is never marked completed.", "quantifier": "all inputs of any number of q-points, atoms and volumes", "why_tests_cant": "unbounded nested data", "anchors": ["quantas/IO/qha_reader.py:QHAInputFileReader"]}
{"id": "C53", "title": "The phonon input generator depends only on the files it was given", "statement": "The generated input contains exactly the calculations listed in the current request, whatever was generated before, and missing files or unsupported combinations yield an error.", "quantifier": "all histories of generator use", "why_tests_cant": "history-dependent", "anchors": ["quantas/IO/qha_writer.py:QHAInputCreator.read"]}
{"id": "C54", "title": "Missing HDF5 data sets and attributes are reported", "statement": "Asking the reader of result files for a data set, a column, a row or an attribute that is absent is answered by the message naming what is missing, and has_data says so; a present one is returned unchanged.", "quantifier": "all files and all requested names", "why_tests_cant": "all names and files", "anchors": ["quantas/IO/hdf5_reader.py:QuantasHDF5Reader", "quantas/IO/hdf5_export.py"]}
{"id": "C55", "title": "Text tables are rectangular and complete", "statement": "Every data set offered for export by the harmonic and quasi-harmonic exporters can be written as a table with one line per temperature and one cell per column, all lines having equal width when the numbers fit their cells.", "quantifier": "all grids and all offered data sets", "why_tests_cant": "unbounded grid sizes; failure depends on array rank and size", "anchors": ["quantas/harmonic/utils/table.py:QHATableFile.write", "quantas/harmonic/utils/export.py:QuantasHarmonicExport.run", "quantas/qha/utils/table.py"]}
{"id": "C56", "title": "VASP elastic moduli are reordered to Voigt notation", "statement": "The matrix returned by the VASP reader has, for all pairs of Voigt indices (xx, yy, zz, yz, xz, xy), the value VASP printed for that pair (VASP order xx, yy, zz, xy, yz, zx) divided by ten.", "quantifier": "all 6x6 tables", "why_tests_cant": "all index pairs and values", "anchors": ["quantas/interfaces/vasp.py:VASPSOECReader.load"]}
{"id": "C57", "title": "The VASP reader uses the total moduli block when present", "statement": "The rows read are the six rows following the header of the total elastic moduli when the file contains it, otherwise those following the symmetrized moduli header. A table with a word that is not a number is refused, and the message names the row and the column of the first such word.", "quantifier": "all files with any number of lines and blocks", "why_tests_cant": "unbounded files and block arrangements", "anchors": ["quantas/interfaces/vasp.py:VASPSOECReader.soec_start_line"]}
{"id": "C58", "title": "CRYSTAL elastic moduli are symmetrised once", "statement": "The stiffness matrix returned by the CRYSTAL reader is symmetric with the upper triangle printed in the file, for any number of files read before.", "quantifier": "all triangles and all read histories", "why_tests_cant": "in-place accumulation shows only on repeated use", "anchors": ["quantas/interfaces/crystal.py:CrystalSOECReader.load"]}
{"id": "C59", "title": "Reading CRYSTAL phonons terminates and expands degenerate modes", "statement": "For every output file the phonon reader stops; each band holds 3*natom frequencies with every degenerate entry repeated by its multiplicity in order.", "quantifier": "all files, including truncated ones", "why_tests_cant": "termination on every input", "anchors": ["quantas/interfaces/crystal.py:CrystalPhononReader.set_phonons"]}
{"id": "C60", "title": "CRYSTAL quasi-harmonic cells are matched to their sorted volumes", "statement": "The list of cells returned is the permutation of the cells found in the output that matches the printed ascending volumes, so volume i, energy i and frequencies i refer to the same cell.", "quantifier": "all numbers of cells and all orders", "why_tests_cant": "all permutations", "anchors": ["quantas/interfaces/crystal.py:CrystalQHAReader.set_ordered_cells"]}
{"id": "C61", "title": "Chemical symbols and atomic numbers are inverse", "statement": "symbol2number and number2symbol are mutually inverse on the supported elements and unknown symbols raise.", "quantifier": "all strings and integers", "why_tests_cant": "all strings; the finite table must be checked whole", "anchors": ["quantas/utils/chemistry/symbols.py"]}
{"id": "C62", "title": "Cofactor matrix", "statement": "The cofactor function returns the matrix of signed minors for every 3x3 matrix, singular or not, so that A*cof(A)^T = det(A)*I.", "quantifier": "all 3x3 real matrices", "why_tests_cant": "two code paths over all matrices", "anchors": ["quantas/seismic/utils/seismic_obj.py:cofactor", "quantas/utils/math/fast_math.pyx:cofactor"]}
{"id": "C63", "title": "Kieffer acoustic contributions are thermodynamically consistent", "statement": "The integrands used for the acoustic free energy, entropy and heat capacity satisfy s = -df/dT and c = T*ds/dT at each frequency, and the normalised density of states integrates to one mode per branch.", "quantifier": "all cut-off frequencies, all T > 0, all integration points", "why_tests_cant": "derivatives and integrals over a continuum", "anchors": ["quantas/qha/utils/kieffer.py"]}
{"id": "C64", "title": "Plane projections of the hemisphere", "statement": "The equal-area and stereographic projections map the upper hemisphere into the unit disc, keep the azimuth, are injective in the polar angle, and the equal-area one preserves area.", "quantifier": "all polar angles in [0, pi/2] and all azimuths", "why_tests_cant": "continuum of points", "anchors": ["quantas/seismic/utils/seismic_plotter.py:SeismicPlotter.make_2D_plot"]}
{"id": "C65", "title": "Figures and tables use the column they announce", "statement": "The column shown as polarisation, phase velocity, group velocity, power-flow angle and enhancement factor is the column in which the run stored that quantity.", "quantifier": "all result tables", "why_tests_cant": "all tables", "anchors": ["quantas/seismic/seismic.py:SeismicCalculator.run", "quantas/seismic/utils/seismic_plotter.py:SeismicPlotter.make_2D_plot_polarization"]}
{"id": "C66", "title": "Command options produce the settings they document", "statement": "Output and log names derive from the input or -o option for every command; the default number of azimuths is four times the polar points only when the user did not choose it.", "quantifier": "all option combinations", "why_tests_cant": "all strings and option combinations", "anchors": ["quantas/eosfit/commands/cmd_eosfit.py", "quantas/seismic/commands/cmd_seismic.py", "quantas/harmonic/commands/cmd_ha.py"]}
{"id": "C67", "title": "Calculator options do not leak between runs", "statement": "Whether a calculator plots depends only on its own settings, for any history of calculators created before in the process.", "quantifier": "all histories of calculator creation", "why_tests_cant": "history-dependent", "anchors": ["quantas/seismic/seismic.py:SeismicCalculator.__init__", "quantas/soec/soec.py:SOECCalculator", "quantas/utils/flags.py:Flag"]}
{"id": "C68", "title": "Quasi-harmonic energies add up", "statement": "At each temperature and pressure the exported Utot equals the static energy interpolated at the equilibrium volume plus Uzp plus Uth, F equals that static energy plus Fvib, F = Utot - T*S/1000 and H - G = T*S/1000, in both interpolation schemes; each exported column is the interpolation at V(T,P) of the harmonic column of the same name (thermodynamic scheme) or the harmonic quantity of the interpolated frequencies (frequency scheme).", "quantifier": "all inputs with distinct volumes and at least edeg+1 of them, all grids, units and polynomial degrees", "why_tests_cant": "needs linearity of least squares over all data sets", "anchors": ["quantas/qha/qha.py:QHACalculator.run_thermodynamics_interpolation", "quantas/qha/qha.py:QHACalculator.run_frequency_interpolation"]}
{"id": "C69", "title": "Isothermal bulk modulus of the quasi-harmonic run", "statement": "With polynomial minimisation and thermodynamic interpolation of degree at most 4, KT equals V*F''(V) at the equilibrium volume in the chosen pressure unit and is positive; with EoS minimisation, V, KT and K' are the parameters of the EoS fitted to F + P*V, KT converted to the chosen pressure unit.", "quantifier": "all inputs, grids and units", "why_tests_cant": "exactness of the five-point fit has to hold for every polynomial and volume", "anchors": ["quantas/qha/qha.py:QHACalculator.numerical_bulk_modulus", "quantas/qha/qha.py:QHACalculator.find_eos_minimum"]}
{"id": "C70", "title": "Kieffer's acoustic correction can be requested", "statement": "A quasi-harmonic run with the acoustic (Kieffer) option either completes with the correction included or reports that the acoustic frequencies are missing.", "quantifier": "all inputs and settings", "why_tests_cant": "ranges over all inputs; a single failing run does not show that none succeeds", "anchors": ["quantas/qha/qha.py:QHACalculator.run", "quantas/qha/qha.py:QHACalculator.acoustic", "quantas/IO/qha_reader.py:QHAInputFileReader"]}
{"id": "C71", "title": "Axial and volume fits of a cubic crystal describe the same pressures", "statement": "For a cubic crystal (V = l^3) the pressure curve of an axial fit with linear modulus M0 = 3*K0 (and M' = 3*K') equals the curve of the volume fit with K0, K' at every length.", "quantifier": "all formulations, K0 > 0, lengths l > 0", "why_tests_cant": "functional identity over all lengths and parameters", "anchors": ["quantas/eosfit/utils/pv_eos.py:EOS.fit", "quantas/eosfit/utils/pv_eos.py:BirchMurnaghan.eos", "quantas/eosfit/utils/interactive.py:select_data"]}
{"id": "C72", "title": "Wave data are even under inversion", "statement": "Setting a Seismic object to direction -v instead of v leaves eigenvalues, polarisations, phase velocities, relative velocities, group-velocity magnitudes, power-flow angles, Hessians and enhancement factors unchanged and reverses the group velocities, so that a plot may show the value of a node at both ends of its axis.", "quantifier": "all stiffness matrices, densities, directions and previous uses of the object", "why_tests_cant": "a test samples finitely many directions and matrices", "anchors": ["quantas/seismic/utils/seismic_obj.py:Seismic", "quantas/seismic/utils/seismic_plotter.py:SeismicPlotter.make_3D_plot"]}
{"id": "C73", "title": "Velocity ratios of a stable medium are bounded", "statement": "For a mechanically stable crystal the S-wave anisotropy drawn by the plotter lies in [0, 200) per cent, and 1 <= v_P/v_S1 <= v_P/v_S2 in every direction.", "quantifier": "all positive-definite stiffness matrices, positive densities and directions", "why_tests_cant": "a test samples finitely many directions and matrices", "anchors": ["quantas/seismic/utils/seismic_obj.py:Seismic.phase_velocity", "quantas/seismic/utils/seismic_plotter.py:SeismicPlotter.make_2D_plot_ratios"]}
{"id": "C74", "title": "Energy follows the wave in isotropic media", "statement": "In an isotropic medium, for all three waves and every direction, the group velocity is the phase velocity times the direction, the power-flow angle is zero and the enhancement factor is one.", "quantifier": "all positive bulk and shear moduli, positive densities and directions", "why_tests_cant": "a test samples finitely many directions and moduli", "anchors": ["quantas/seismic/utils/seismic_obj.py:Seismic.group_velocity", "quantas/seismic/utils/seismic_obj.py:Seismic.powerflow_angle", "quantas/seismic/utils/seismic_obj.py:Seismic.enhancement"]}
{"id": "C75", "title": "Reading an EoS file terminates for every file and history", "statement": "Loading an equation-of-state file returns or raises for every text file, whatever files the process has read before.", "quantifier": "all text files and all read histories", "why_tests_cant": "non-termination on some file cannot be excluded by running finitely many files", "anchors": ["quantas/IO/eos_reader.py:EoSInputFileReader.load", "quantas/IO/eos_reader.py:EoSInputFileReader.set_job_name"]}
{"id": "C76", "title": "CRYSTAL density is the one printed for the input geometry, in kg/m3", "statement": "Reading the CRYSTAL output of a completed elastic calculation returns as density 1000 times the number (g/cm3) printed in the first PRIMITIVE CELL line at or after the message that the geometry is consistent with the group, zero if there is no such line, whatever outputs were read before; outputs of other or unfinished calculations are refused with an error and change nothing. A table with a word that is not a number is refused, and the message names the row and the column of the first such word.", "quantifier": "every CRYSTAL output text and every sequence of outputs read before it", "why_tests_cant": "The repository tests one output; the position of the line among arbitrarily many others and the independence from the class-level state must hold for every output and history.", "anchors": ["quantas/interfaces/crystal.py:CrystalSOECReader.crystal_density_init", "quantas/interfaces/crystal.py:CrystalSOECReader.load"]}
{"id": "C77", "title": "A zone-centre CRYSTAL phonon output is read faithfully", "statement": "Loading a CRYSTAL output of a frequency calculation at the zone centre returns exactly the printed atoms, lattice vectors, volume, energy and frequencies, with one q point of weight one; a file that is not such an output is reported as such; a reader that reports completion has an energy, a lattice and at least one band.", "quantifier": "All texts; all numbers of atoms, all printed numbers, all groupings of degenerate modes.", "why_tests_cant": "Tests read a couple of files; the layout of the printed geometry and table varies with the number of atoms and the degeneracies.", "anchors": ["quantas/interfaces/crystal.py:CrystalPhononReader"]}
{"id": "C78", "title": "A dispersion output is reduced to one unit cell", "statement": "Loading a CRYSTAL phonon dispersion output made with a supercell of n unit cells returns the energy and the volume of the supercell divided by n, the lattice vectors and the atoms of the unit cell, and one band for every sampled point, together with the weights; an output without all bands is not reported as complete.", "quantifier": "All outputs, all expansion matrices, numbers of points and printed values.", "why_tests_cant": "Only a supercell whose expansion matrix commutes with the lattice hides an error in the order of the matrices; tests use such supercells.", "anchors": ["quantas/interfaces/crystal.py:CrystalPhononReader.load", "quantas/interfaces/crystal.py:CrystalPhononReader.set_q_mesh", "quantas/interfaces/crystal.py:CrystalPhononReader.set_phonons"]}
{"id": "C79", "title": "Supercell outputs without dispersion are read", "statement": "A CRYSTAL frequency calculation at the zone centre of a supercell, without phonon dispersion, is read; energy, volume and number of atoms refer to the supercell.", "quantifier": "All such outputs.", "why_tests_cant": "The branch exists in the accessors but no test file exercises it.", "anchors": ["quantas/interfaces/crystal.py:CrystalPhononReader.load", "quantas/interfaces/crystal.py:CrystalPhononReader.natom"]}
{"id": "C80", "title": "Reading a CRYSTAL quasi-harmonic output does not depend on files read before", "statement": "What a reader of a CRYSTAL quasi-harmonic output returns (cells, volumes, energies, number of atoms, points, frequencies, weights) depends only on the file it was given, not on the outputs that other readers read earlier in the same process.", "quantifier": "all output files and all histories of earlier readings", "why_tests_cant": "tests read one file per process; the leak needs a particular earlier file", "anchors": ["quantas/interfaces/crystal.py:CrystalQHAReader", "quantas/IO/qha_writer.py"]}
{"id": "C81", "title": "Unsuitable CRYSTAL quasi-harmonic outputs are refused", "statement": "A file that is not a quasi-harmonic output, that holds fewer than four volumes, or that belongs to a restarted calculation is reported with an error message and never marked as completed; no such file makes the reader fail with an exception.", "quantifier": "all text files", "why_tests_cant": "the set of malformed outputs is infinite", "anchors": ["quantas/interfaces/crystal.py:CrystalQHAReader.load", "quantas/interfaces/crystal.py:CrystalQHAReader.set_qha_points"]}
{"id": "C82", "title": "An incomplete frequency table is refused", "statement": "An input whose phonon section does not give, for every announced q-point, three bands per atom with one frequency per volume is refused; nothing is filled in silently, and the array returned always has the announced shape.", "quantifier": "all YAML trees given as phonon input", "why_tests_cant": "unbounded nested data; the failures are silent", "anchors": ["quantas/IO/qha_reader.py:QHAInputFileReader.frequencies", "quantas/IO/qha_reader.py:QHAInputFileReader._get_float"]}
{"id": "C83", "title": "Phonopy calculations are read faithfully", "statement": "For every complete phonopy calculation the reader returns the atomic numbers and coordinates, the cell volume, the q-points with their coordinates and weights, the energy of the last VASP step, and each frequency converted to wavenumbers without change of physical value; missing or unreadable files and incomplete tables are reported, never filled in.", "quantifier": "all phonopy output trees, of any number of atoms and q-points, and all combinations of present and missing files", "why_tests_cant": "unbounded nested data and numerical values; silent truncation", "anchors": ["quantas/interfaces/phonopy.py:PhonopyReader"]}
{"id": "C84", "title": "The reference of the phonon input generator is one of the files", "statement": "The input generator takes its reference data from the file at the given position, counted from zero, and a position that is not that of one of the files is reported as an error before anything is written.", "quantifier": "all requests and all integers given as reference", "why_tests_cant": "boundary behaviour for every number of files and every integer", "anchors": ["quantas/harmonic/commands/cmd_inpgen.py:ha_inpgen", "quantas/IO/qha_writer.py:QHAInputCreator.write_from_multiple_files"]}
{"id": "C85", "title": "A generated phonon input can be read back", "statement": "The generated phonon input is a YAML text that contains the description of the user, the volumes, energies and frequencies of all calculations in the order given, and everything else from the reference calculation; read by the phonon reader it is accepted and gives the same numbers in the same places, within the accuracy of the printed formats.", "quantifier": "all complete sets of calculations, all descriptions and all numbers", "why_tests_cant": "round trip over all tables, sizes and numbers", "anchors": ["quantas/IO/qha_writer.py:QHAInputCreator.write_from_multiple_files", "quantas/IO/qha_writer.py:QHAInputCreator.write_from_single_file", "quantas/IO/qha_reader.py:QHAInputFileReader"]}
{"id": "C86", "title": "Exporting never overwrites a file without confirmation", "statement": "In the export dialogue of harmonic and quasi-harmonic results an existing file is overwritten only after the user has confirmed it, and no file is written except those named after the selection or typed by the user.", "quantifier": "all dialogues of any length, all disk contents", "why_tests_cant": "unbounded sequences of answers and file names", "anchors": ["quantas/harmonic/utils/export.py:QuantasHarmonicExport.run", "quantas/qha/utils/export.py:QuantasQHAExport.run"]}
{"id": "C87", "title": "Exporters of different files do not interfere", "statement": "An exporter writes the data of the file it was made for, whatever other exporters were made in the same process before or after.", "quantifier": "all pairs of result files and all orders of loading and exporting", "why_tests_cant": "depends on the history of the process", "anchors": ["quantas/harmonic/utils/export.py:QuantasHarmonicExport", "quantas/qha/utils/export.py:QuantasQHAExport"]}
{"id": "C88", "title": "The units recorded with the results are those of the numbers", "statement": "In the result file of a quasi-harmonic run, the numbers read with the unit recorded beside them satisfy the thermodynamic relations H = U + pV, G = F + pV, H - G = TS, KS = KT + alpha^2 KT^2 V T / Cv, Cp - Cv = alpha^2 KT V T and Cp = Cv + (Cp - Cv), and volumes are recorded in cubed lengths.", "quantifier": "all runs, units and grid points", "why_tests_cant": "quantifies over all inputs and unit choices; a unit label is not checked by comparing numbers", "anchors": ["quantas/qha/qha.py:QHACalculator.export_hdf5", "quantas/qha/qha.py:QHACalculator._finalize_run"]}
{"id": "C89", "title": "A run does not destroy its input", "statement": "Whatever the outcome of a run, the input file given to a command has the same contents afterwards as before.", "quantifier": "every input path, every -o value, every input content, every outcome (not a file, refused, failed, declined, saved)", "why_tests_cant": "A test uses a handful of file names; the damage appears only for the names for which a derived log or result path coincides with the input, which has to be excluded for all paths.", "anchors": ["quantas/harmonic/commands/cmd_ha.py:ha_calculation", "quantas/qha/commands/cmd_qha.py:qha_calculation", "quantas/soec/commands/cmd_soec.py:soec_calculation", "quantas/eosfit/commands/cmd_eosfit.py:eos_calculation", "quantas/cmdline/utils/messages.py:init_logfile"]}
{"id": "C90", "title": "Quiet changes the screen only", "statement": "With -q a run writes the same results and the same log, ends in the same way, and prints nothing on the screen unless there is an error.", "quantifier": "every command, input, option set and outcome", "why_tests_cant": "It compares two runs for every input and every sequence of messages; a test compares two particular runs.", "anchors": ["quantas/cmdline/utils/messages.py:echo", "quantas/core/calculator.py:BasicCalculator.echo", "quantas/qha/commands/cmd_qha.py:qha_calculation"]}
{"id": "C91", "title": "Declining to overwrite leaves the earlier files", "statement": "If files of an earlier run with the same names exist and the user declines to overwrite them, or the run fails, they keep their contents.", "quantifier": "every earlier content, every input, every point at which the run ends", "why_tests_cant": "The order of opening the log, asking and saving matters for every possible end of the run.", "anchors": ["quantas/harmonic/commands/cmd_ha.py:ha_calculation", "quantas/qha/commands/cmd_qha.py:qha_calculation", "quantas/soec/commands/cmd_soec.py:soec_calculation"]}
{"id": "C92", "title": "Plot options select the figures", "statement": "The options -p, --only-plot, --no-2D, --no-3D and --proj decide exactly which figures are drawn, under different names derived from the results; with -p and a plotting package the figures are drawn.", "quantifier": "every combination of options, installed packages, result names and outcomes", "why_tests_cant": "Combinations of options and of installed packages with outcomes of the run; a test environment has one set of packages and never draws all combinations.", "anchors": ["quantas/seismic/commands/cmd_seismic.py:seismic_calculation", "quantas/seismic/utils/seismic_plotter.py:SeismicPlotter.run", "quantas/soec/soec.py:SOECCalculator.run"]}
{"id": "C93", "title": "Documented commands are available", "statement": "Every command used in the documentation is registered with the program.", "quantifier": "all commands in the documentation and all registered commands", "why_tests_cant": "It relates all of the documentation to all of the registrations; tests call the commands that exist.", "anchors": ["quantas/cmdline/commands/cmd_quantas.py:cli", "quantas/cmdline/commands/cmd_export.py:export", "quantas/cmdline/commands/cmd_inpgen.py:inpgen"]}
{"id": "C94", "title": "Sections hold the property along each direction", "statement": "With --polar, the table of a quantity on a coordinate plane has one row per angle, from 0 to 360 degrees in equal steps; the row holds the elastic response of the solid along the direction of the plane at that angle, the extremes over the orthogonal directions for the shear modulus and Poisson's ratio, and the last row repeats the first.", "quantifier": "every stable solid, density, number of nodes, plane, quantity, row and search that descends", "why_tests_cant": "The solids form a 21-dimensional cone and the sections are defined by Hooke's law for each direction; a test compares some stored numbers of one mineral.", "anchors": ["quantas/soec/soec.py:SOECCalculator.calculate_polar_properties", "quantas/soec/utils/soec_obj.py:SOEC.polar_young", "quantas/soec/utils/soec_obj.py:SOEC.polar_shear", "quantas/soec/utils/soec_obj.py:SOEC.polar_poisson"]}
{"id": "C95", "title": "Recorded units of the elastic results", "statement": "Each number in the result file of the elastic analysis, multiplied by the unit recorded beside it, is the quantity in SI units.", "quantifier": "every stable solid and density, every data set of the file and every entry", "why_tests_cant": "A wrong unit leaves the numbers unchanged, and tests compare numbers; the property relates every entry to Hooke's law in SI units.", "anchors": ["quantas/soec/soec.py:SOECCalculator.export_hdf5"]}
{"id": "C96", "title": "The elastic result file holds what was calculated", "statement": "The result file of the elastic analysis has a section for a quantity and a plane if and only if that section was calculated in the run, with the table that was calculated.", "quantifier": "every solid, density, plane, quantity and choice of --polar", "why_tests_cant": "It relates every combination of options and densities to the presence of every data set.", "anchors": ["quantas/soec/soec.py:SOECCalculator.export_hdf5", "quantas/soec/soec.py:SOECCalculator.run"]}
{"id": "C99", "title": "Polar figures show the sections", "statement": "The polar figure of a quantity has an axis for each plane, with one curve per column of the table, through the points of the rows, and the range shown contains every point of every curve.", "quantifier": "every stable solid, quantity, plane, row and column", "why_tests_cant": "Figures are not compared by tests, and whether a curve leaves the range depends on the sign and size of the property over all directions and all solids.", "anchors": ["quantas/soec/utils/plotting.py:young_polar_plot", "quantas/soec/utils/plotting.py:compressibility_polar_plot", "quantas/soec/utils/plotting.py:poisson_polar_plot"]}
{"id": "C97", "title": "Exported elastic sections are those that were saved", "statement": "The exporter of an elastic result file offers exactly the quantities whose polar sections the file holds, and the selection of one writes a table with its title, its unit and one line per angle, which holds the angle and the values on the (xy), (xz) and (yz) planes in that order as they were saved; all lines of the table have the same width.", "quantifier": "every elastic result file, quantity and dialogue, whatever other files were loaded in the process before", "why_tests_cant": "It ranges over all tables of all lengths and over all histories of a dictionary shared by the exporters of a process.", "anchors": ["quantas/soec/utils/export.py:QuantasSOECExport", "quantas/soec/utils/table.py:SOECTableFile"]}
{"id": "C98", "title": "Exported seismic tables are those that were saved, and exporters refuse files of another kind", "statement": "The exporter of a seismic result file offers the three waves, and the selection of one writes the description of that data set and one line per direction with its fourteen numbers, each of which is the quantity announced in the description; every exporter refuses the result files of the other kinds with a message and writes nothing.", "quantifier": "every seismic result file, wave and dialogue, whatever was loaded before; every pair of different kinds of result files", "why_tests_cant": "It ranges over all tables, all dialogues and all histories of the process.", "anchors": ["quantas/seismic/utils/export.py:QuantasSeismicExport", "quantas/seismic/commands/cmd_export.py", "quantas/seismic/seismic.py:SeismicCalculator.export_hdf5"]}
{"id": "C100", "title": "Starting values of a pressure-volume fit", "statement": "The starting values of a P(V) fit are the zero-pressure volume and the bulk modulus, at that volume, of the cubics closest to the data; data that lie on such curves give the exact values, and neither the order of the data nor the units change the volume and the modulus they describe.", "quantifier": "every set of four or more pressure-volume data with distinct volumes and distinct pressures, every permutation of it and every change of units", "why_tests_cant": "Each test fits one data set in one order and unit; the claim relates all permutations and scalings of all data sets.", "anchors": ["quantas/eosfit/utils/pv_eos.py:EOS.guess"]}
{"id": "C101", "title": "Starting values of an energy-volume fit", "statement": "The starting values of an E(V) fit are the minimum of the quartic closest to the energies, with its energy and its bulk modulus there.", "quantifier": "every set of five or more energy-volume data with distinct volumes", "why_tests_cant": "Which stationary point is picked depends on the position of all roots of a fitted polynomial; test data have only one near the volumes.", "anchors": ["quantas/qha/utils/ev_eos.py:EnergyEOS.guess"]}
{"id": "C102", "title": "Static pressures in the quasi-harmonic input report", "statement": "The pressure listed beside each volume in the input report is minus the slope of the static energy at that volume, in the units of the run.", "quantifier": "every differentiable energy curve, every increasing list of volumes, every choice of units and of minimisation", "why_tests_cant": "It relates every listed number to the derivative of every curve; a test on one curve accepts errors below its tolerance.", "anchors": ["quantas/qha/qha.py:QHACalculator.report_input_data"]}
{"id": "C103", "title": "Values with errors in the quasi-harmonic input report", "statement": "A line label = value(error) in the input report reads, in the usual notation where the digits in parentheses count units of the last decimal, as the fitted value and its standard error, correctly rounded; there is one line for each of E0, K0, K' and V0.", "quantifier": "every value and every standard error", "why_tests_cant": "The text depends on the magnitudes and on the last digits of the rounded numbers; the failures need a trailing zero or an error just below a power of ten.", "anchors": ["quantas/qha/qha.py:QHACalculator.report_input_data"]}
{"id": "C104", "title": "Exact energies determine the E(V) parameters", "statement": "If the energies given to an E(V) fit lie on a curve of the chosen formulation, the best fit has the parameters of that curve: no other solid with a positive volume and bulk modulus has the same energies at four volumes (five for Vinet).", "quantifier": "every formulation, every solid, every set of enough distinct positive volumes", "why_tests_cant": "A test recovers the parameters of one curve; that no other parameters fit equally well is a statement about all of them.", "anchors": ["quantas/qha/utils/ev_eos.py:EnergyEOS.fit", "quantas/qha/utils/ev_eos.py:EnergyEOS.murnaghan", "quantas/qha/utils/ev_eos.py:EnergyEOS.vinet"]}
{"id": "C105", "title": "Exact pressures determine the P(V) parameters", "statement": "If the pressures given to a P(V) fit lie on a curve of the chosen formulation and order, the best fit, weighted or not, by least squares or orthogonal distances, has the parameters of that curve.", "quantifier": "every formulation, order, axial or volume fit, every solid with positive volume and bulk modulus, every set of enough distinct positive volumes and all positive weights", "why_tests_cant": "Uniqueness ranges over all parameters; a test sees only the optimum that the optimiser reached from one start.", "anchors": ["quantas/eosfit/utils/pv_eos.py:EOS.fit", "quantas/eosfit/utils/pv_eos.py:BirchMurnaghan.eos", "quantas/eosfit/utils/pv_eos.py:Tait.eos"]}
{"id": "C106", "title": "Strain and normalised pressure of the f-F plot", "statement": "The arrays returned for an f-F plot are the strain and the normalised pressure of the chosen formulation: the normalised pressure times the factor of the formulation is the pressure; data lying exactly on the equation of state lie exactly on the plotted curve; the curve of a second or third order fit is a straight line with intercept K0 and slope 3/2 K0 (K' - 4) (Eulerian), 3/2 K0 (K' - 2) (natural), or a straight line in the logarithm for Vinet; the parameters handed in by the caller are not changed; the errors of the strain and of the normalised pressure are those of first-order propagation.", "quantifier": "every formulation, order, volume or axial fit, every set of parameters, volumes, pressures and errors", "why_tests_cant": "The identities must hold at every volume and for every parameter set; a test compares a few numbers, and sees neither the overwritten parameters of second-order axial fits nor a wrong power of the volume ratio in the errors.", "anchors": ["quantas/eosfit/utils/pv_eos.py:BirchMurnaghan.normalize", "quantas/eosfit/utils/pv_eos.py:NaturalStrain.normalize", "quantas/eosfit/utils/pv_eos.py:Vinet.normalize"]}
{"id": "C107", "title": "Report of an equation of state fit", "statement": "After a fit the log lists the four parameters with the labels of the chosen quantity, their values to five decimals, their standard errors and whether they were fixed or are implied by the equation of state, the covariance matrix, the residual variance, the reasons for stopping, and one line per point with the value, its correction, the observed pressure, the fitted pressure and their difference; a parameter is flagged as implied exactly when the equation of state ignores it.", "quantifier": "every data set, output of the fitting routine, quantity, formulation, order and set of fixed parameters that a session can choose", "why_tests_cant": "The columns must be right for every fit; a test with small residuals does not see that a column holds another array, and the flags must agree with every formulation and order.", "anchors": ["quantas/eosfit/eosfit.py:EoSFitCalculator.report_fit", "quantas/eosfit/utils/interactive.py:get_label"]}
{"id": "C108", "title": "Acceptance and report of the data of an equation of state fit", "statement": "A file with pressures is accepted exactly when it has at least one column with volumes or axes, and is refused with a message otherwise; the table of an accepted file has one line per row of the file with every number correctly rounded, '--' where a quantity was not given, and lists the quantities that have weights.", "quantifier": "every well-formed file, number of rows, order of the columns and set of columns", "why_tests_cant": "Files may have any number of rows and any set of columns in any order; a test fixes one.", "anchors": ["quantas/eosfit/eosfit.py:EoSFitCalculator.read_input", "quantas/eosfit/eosfit.py:EoSFitCalculator.report_input_data"]}
{"id": "C109", "title": "Tables of quasi-harmonic results in the log", "statement": "The log of a quasi-harmonic run has one table per pressure, headed by the pressure and its unit, with one line per temperature that holds temperature, volume, thermal expansion, isothermal and adiabatic bulk modulus and Cp-Cv at this temperature and pressure, each correctly rounded and in the unit of its title; Cp-Cv is alpha^2 KT V T per mole in J/(mol K).", "quantifier": "every run, every number of temperatures and pressures, every choice of units", "why_tests_cant": "The table must be right for every shape and every choice of units; a test runs one.", "anchors": ["quantas/qha/qha.py:QHACalculator.report_results"]}
{"id": "C110", "title": "Report of the fits of the frequencies", "statement": "The log lists, for every wave vector and frequency, the coefficient of determination of the fit with six decimals and the verdict OK from 0.90, Low from 0.80 and BAD! below, and the mean of every wave vector; a fit that goes through all points is never called bad.", "quantifier": "every number of wave vectors and frequencies, all data and fits", "why_tests_cant": "The verdict depends on the data; a test with frequencies that all change with the volume does not see what happens to constant ones.", "anchors": ["quantas/qha/qha.py:QHACalculator.__report_frequency_fit", "quantas/utils/math/fast_math.pyx:multi_R2"]}
{"id": "C111", "title": "Log of the elastic calculator", "statement": "The log of an elastic calculation shows the stiffness matrix in GPa and the compliance in TPa^-1 entry by entry and correctly rounded, the density or that it is missing, the Voigt, Reuss and Hill averages, the eigenvalues in order, and for every property the minimum, the maximum, the anisotropy and the directions; wave velocities are shown exactly when the density is given.", "quantifier": "all stiffness matrices, densities, averages and extremes", "why_tests_cant": "Rounding, signs and alignment must be right for every value, and the lines on velocities depend on whether there is a density.", "anchors": ["quantas/soec/soec.py:SOECCalculator.report_input_data", "quantas/soec/soec.py:SOECCalculator.report_initial_results", "quantas/soec/soec.py:SOECCalculator.report_variation_single", "quantas/soec/soec.py:SOECCalculator.run"]}
{"id": "C112", "title": "Report of a harmonic input and acceptance of quasi-harmonic inputs", "statement": "For every complete input the harmonic report gives the title, the numbers of volumes, atoms, sampled points and frequencies, and one line per volume with its energy in the units of the run; a quasi-harmonic run accepts exactly the inputs with at least four volumes and says why it refuses the others.", "quantifier": "every input file, every number of atoms, volumes and wave vectors", "why_tests_cant": "The forms an input can take are unbounded, and an input with one volume takes another path than one with several.", "anchors": ["quantas/harmonic/harmonic.py:HACalculator.report_input_data", "quantas/qha/qha.py:QHACalculator.read_input", "quantas/IO/qha_reader.py:QHAInputFileReader"]}
{"id": "C113", "title": "Settings printed at the start of the log", "statement": "The settings block of every command's log names the calculator and lists every setting of the run with its unit: for the quasi-harmonic command the scheme, the minimisation with the equation of state, the Kieffer correction, the polynomial degrees, the temperature and pressure ranges and the units. Two quasi-harmonic runs whose settings blocks are equal have the same settings, the ranges up to the two decimals printed.", "quantifier": "every combination of options the command line offers, every range", "why_tests_cant": "The ranges are arbitrary numbers and the options combine freely; that the block determines the run concerns all pairs of runs.", "anchors": ["quantas/qha/commands/cmd_qha.py:print_settings", "quantas/harmonic/commands/cmd_ha.py:print_settings", "quantas/seismic/commands/cmd_seismic.py:print_settings", "quantas/soec/commands/cmd_soec.py:print_settings", "quantas/eosfit/commands/cmd_eosfit.py:print_settings"]}
{"id": "C114", "title": "Start of a seismic run", "statement": "The seismic command takes an input exactly when its stiffness matrix can be read and inverted and it gives a positive density, and then works with the title, matrix and density of the file; other inputs are refused with a message. The report of the input shows the title, the density, the stiffness and its inverse.", "quantifier": "every input file with a symmetric matrix in one of the accepted layouts, every density", "why_tests_cant": "Files, matrices and densities are unbounded families; the refusals depend on the sign of the density and on the determinant.", "anchors": ["quantas/seismic/seismic.py:SeismicCalculator.read_input", "quantas/seismic/seismic.py:SeismicCalculator.report_input_data", "quantas/seismic/utils/seismic_obj.py:Seismic", "quantas/IO/soec_reader.py:SOECInputFileReader"]}
{"id": "C115", "title": "Unknown commands are refused with suggestions", "statement": "A name given to the program or to one of its groups of commands runs the command registered under exactly that name. Any other name ends the program with an error that lists at most three registered commands without repetition: those whose names are most similar to the given one, or else the first that begin with it. It says that there is no similar command only when there is none.", "quantifier": "every group of commands, every name, every similarity measure with values between 0 and 1", "why_tests_cant": "Names are an unbounded family and the suggestions depend on the order and the ties of the similarities.", "anchors": ["quantas/cmdline/utils/general.py:MostSimilarCommandGroup.get_command", "quantas/cmdline/commands/cmd_quantas.py:cli"]}
{"id": "C116", "title": "Elastic properties do not depend on the Cartesian frame", "statement": "The same crystal described in another Cartesian frame has the same Young's modulus, linear compressibility, shear modulus and Poisson's ratio along the correspondingly turned directions, and the same Voigt, Reuss and Hill averages and isotropic velocities. In particular the properties repeat under every symmetry operation of the crystal.", "quantifier": "every stiffness matrix, every rotation or reflection, every direction", "why_tests_cant": "Crystals, frames and directions are continuous families; a test compares one crystal in two frames up to rounding.", "anchors": ["quantas/soec/utils/soec_obj.py:SOEC.young_modulus", "quantas/soec/utils/soec_obj.py:SOEC.linear_compressibility", "quantas/soec/utils/soec_obj.py:SOEC.shear_modulus", "quantas/soec/utils/soec_obj.py:SOEC.poisson_ratio", "quantas/soec/utils/soec_obj.py:SOEC.averages", "quantas/soec/utils/soec_obj.py:SOEC.isotropic_velocities"]}
{"id": "C117", "title": "Seismic waves do not depend on the Cartesian frame", "statement": "The same crystal described in another Cartesian frame has, along the correspondingly turned direction, the same phase velocities and relative phase velocities. Every wave whose velocity differs from that of the others has the turned polarisation (up to its sign) and the turned group velocity, and the same group speed, relative group velocity, power flow angle and enhancement factor. The velocities of the elastic calculator are the same as well.", "quantifier": "every symmetric stiffness matrix, density, rotation or reflection, direction and history of the object", "why_tests_cant": "Crystals, frames and directions are continuous families, and the signs and order of numerical eigenvectors vary with them.", "anchors": ["quantas/seismic/utils/seismic_obj.py:Seismic", "quantas/soec/utils/soec_obj.py:SOEC.phase_velocity"]}
{"id": "C118", "title": "The enhancement factor is the concentration of rays", "statement": "For every symmetric stiffness matrix, density and wave direction, and every wave with a positive velocity that differs from the velocities of the other two waves, the direction of the energy flow (the ray) is a differentiable function of the wave direction. A small patch of wave directions is turned into a patch of rays whose area is a fixed multiple a of its own, and the enhancement factor that the library reports is 1 / a.", "quantifier": "all symmetric invertible stiffness matrices, all densities accepted, all directions given as angles or vectors, all earlier histories of the object, all waves that are not degenerate", "why_tests_cant": "The claim is about a derivative in all directions at every point of the sphere of every crystal; a finite difference on samples settles neither differentiability nor the value of the derivative.", "anchors": ["quantas/seismic/utils/seismic_obj.py:Seismic.enhancement", "quantas/seismic/utils/seismic_obj.py:Seismic.hessian_eigenval", "quantas/seismic/utils/seismic_obj.py:Seismic.solve_group"]}
{"id": "C119", "title": "Directional elastic properties obey the relations of elasticity", "statement": "For every mechanically stable crystal: the linear compressibilities along any three mutually perpendicular directions add up to the inverse of the Reuss bulk modulus; the linear compressibility along a direction is (1 - nu - nu') / E, with the Poisson's ratios towards any two perpendicular transverse directions; Young's modulus and the shear modulus do not exceed the stiffness against the corresponding strain; the fastest wave along a direction is at least as fast as sound in a thin rod, sqrt(E / rho), and the squares of the three velocities add up to at least (E + G + G') / rho.", "quantifier": "all positive definite stiffness matrices, all densities, all angles", "why_tests_cant": "The relations tie four directional functions, the averages and the waves of another module to each other over a continuum of directions and crystals.", "anchors": ["quantas/soec/utils/soec_obj.py:SOEC.young_modulus", "quantas/soec/utils/soec_obj.py:SOEC.linear_compressibility", "quantas/soec/utils/soec_obj.py:SOEC.shear_modulus", "quantas/soec/utils/soec_obj.py:SOEC.poisson_ratio", "quantas/soec/utils/soec_obj.py:SOEC.averages", "quantas/seismic/utils/seismic_obj.py:Seismic.phase_velocity"]}
{"id": "C120", "title": "Volume and Gibbs energy along the pressure grid", "statement": "In a quasi-harmonic run with polynomial minimisation, at each temperature a higher pressure gives a smaller equilibrium volume, and the pressure difference is the volume difference times the curvature of the free energy at some volume in between. With the thermodynamic scheme the Gibbs energies at two pressures differ by an energy that lies strictly between the pressure difference times the smaller volume and the pressure difference times the larger volume.", "quantifier": "all inputs and settings of a completed run (energy degree at most three, or a free energy convex between the two volumes), all temperatures and pairs of pressures, all units", "why_tests_cant": "The relation compares cells of the result grid for every crystal, unit choice and pair of pressures.", "anchors": ["quantas/qha/qha.py:QHACalculator.minimize_volume", "quantas/qha/qha.py:QHACalculator.run_thermodynamics_interpolation", "quantas/qha/qha.py:QHACalculator.set_gibbs_free_energy", "quantas/utils/math/polynomials.py:find_polynomial_minimum"]}
{"id": "C121", "title": "Entropy, heat capacity and Gibbs energy along the temperature grid", "statement": "The polynomials the thermodynamic scheme fits to the harmonic results keep the laws of thermodynamics at fixed volume: the temperature derivative of the fitted free energy is minus the fitted entropy, and that of the fitted entropy is the fitted isochoric heat capacity over the temperature. Between two temperatures of a run at one pressure the fall of the Gibbs energy is bracketed by the temperature difference times entropies read at the two equilibrium volumes at intermediate temperatures.", "quantifier": "all inputs and settings of a completed run with at least as many volumes as coefficients, all positive temperatures, all volumes, all units; the bracket for free energies convex between the two volumes", "why_tests_cant": "It is a statement about derivatives at every temperature and volume and about every pair of cells of the result grid.", "anchors": ["quantas/qha/qha.py:QHACalculator.run_thermodynamics_interpolation", "quantas/qha/qha.py:QHACalculator.set_gibbs_free_energy", "quantas/harmonic/harmonic.py:HACalculator.run", "quantas/utils/physics/statistical_mechanics.pyx:ho_S"]}
{"id": "C122", "title": "Scaling of stiffness and density", "statement": "If all elastic moduli of a crystal are multiplied by l and its density by m, then along every direction Young's and shear moduli and the averaged moduli are multiplied by l, linear compressibilities are divided by l, and Poisson's ratios are unchanged; phase velocities, isotropic velocities and group velocities are multiplied by sqrt(l/m); relative velocities are unchanged, and so are the polarisations (up to sign), group directions, power flow angles and enhancement factors of waves whose velocity is not shared with another wave.", "quantifier": "all symmetric invertible stiffness matrices, all positive factors, all densities other than zero, all directions however they are set, all earlier uses of the object", "why_tests_cant": "It relates two runs for every crystal, factor and direction, through eigenvalue and pseudo-inverse routines whose tolerances could break it.", "anchors": ["quantas/soec/utils/soec_obj.py:SOEC.young_modulus", "quantas/soec/utils/soec_obj.py:SOEC.averages", "quantas/soec/utils/soec_obj.py:SOEC.phase_velocity", "quantas/seismic/utils/seismic_obj.py:Seismic.solve_group", "quantas/seismic/utils/seismic_obj.py:Seismic.enhancement", "quantas/seismic/utils/seismic_obj.py:Seismic.isotropic_velocity"]}
{"id": "C123", "title": "Quasi-harmonic results do not depend on the units, on the zero of energy or on the size of the cell", "statement": "Describe the same crystal twice: once by a cell and once by a cell that holds N of them (volumes N times as large, static energies N times as large plus a constant c, every mode listed N times as often, whether as more bands or as fewer q-points), possibly in other energy, length, frequency, temperature and pressure units. Then `quantas ha` and `quantas qha` (polynomial minimisation) report N times the energies, entropies and heat capacities in joule, with c added to the total energies, enthalpies and Gibbs energies and to nothing else; the second quasi-harmonic run succeeds exactly when the first does; equilibrium volumes in cubic metre are N times as large; thermal expansion, bulk moduli in pascal, their pressure derivative and the Grueneisen parameter are the same.", "quantifier": "All pairs of inputs that describe the same crystal in this sense, all N > 0 and c, all choices of units on both sides, all temperature and pressure grids, both interpolation schemes, all correct fitting and root finding routines", "why_tests_cant": "A test compares two input files; the claim relates every input to every other description of the same crystal, for all sizes, units and zeros of energy at once.", "anchors": ["quantas/qha/qha.py:QHACalculator.run", "quantas/qha/qha.py:run_thermodynamics_interpolation", "quantas/qha/qha.py:run_frequency_interpolation", "quantas/qha/qha.py:minimize_volume", "quantas/qha/qha.py:numerical_bulk_modulus", "quantas/harmonic/harmonic.py:HACalculator.run", "quantas/utils/physics/statistical_mechanics.pyx"]}
{"id": "C124", "title": "Equation-of-state fits do not depend on units or on the size of the cell", "statement": "Converting volumes, pressures, uncertainties and starting values to other units (or to a multiple of the cell) changes the fitted parameters of an equation of state only by the conversion: K0 scales as a pressure, K' not at all, K'' as an inverse pressure, V0 as a volume. The same holds for fits of energies, where K0 scales as an energy per volume and the zero of energy is free.", "quantifier": "all formulations, orders, volume and length fits, all data, all positive conversion factors, all starting values and held parameters, with or without uncertainties", "why_tests_cant": "A test tries one data set in two units with one formulation; the statement covers every data set, conversion and combination of uncertainties, including the one in which it fails.", "anchors": ["quantas/eosfit/utils/pv_eos.py:EOS.fit", "quantas/eosfit/utils/pv_eos.py:EOS.guess", "quantas/eosfit/utils/pv_eos.py:EOS.check", "quantas/qha/utils/ev_eos.py:EnergyEOS.fit", "quantas/eosfit/utils/interactive.py"]}
{"id": "C125", "title": "Elastic properties and waves have the symmetry of the crystal", "statement": "Given the stiffness matrix of a hexagonal, tetragonal or trigonal crystal with its axis along z, Young's modulus, linear compressibility, shear modulus, Poisson's ratio, wave velocities, ray velocities, power flow angles and enhancement factors (the last three for waves whose velocity is distinct) repeat when the direction is turned about z by any angle, by 90 degrees or by 120 degrees. In an orthorhombic crystal changing the signs of the components of the direction changes nothing, in a cubic crystal changing their order neither, and the linear compressibility of a cubic crystal is 1000/(C11+2C12) along every direction and its Young's modulus follows the textbook formula of S11, S12 and S44. The wave velocities along the axes, and in cubic crystals along the diagonals of the faces and of the cube, are the square roots of the textbook combinations of moduli divided by the density; along the axis of a hexagonal, tetragonal or trigonal crystal both shear waves have the same velocity.", "quantifier": "every stiffness matrix of the crystal class, every density, every direction and polarization angle, every state of the seismic object, every correct eigensolver", "why_tests_cant": "a test evaluates one matrix at a few directions; the symmetry has to hold for all matrices of a class and all directions, and for whatever eigensolver is used", "anchors": ["quantas/soec/utils/soec_obj.py:SOEC.young_modulus", "quantas/soec/utils/soec_obj.py:SOEC.linear_compressibility", "quantas/soec/utils/soec_obj.py:SOEC.shear_modulus", "quantas/soec/utils/soec_obj.py:SOEC.poisson_ratio", "quantas/soec/utils/soec_obj.py:SOEC.phase_velocity", "quantas/seismic/utils/seismic_obj.py:Seismic.solve_group", "quantas/seismic/utils/seismic_obj.py:Seismic.enhancement"]}
{"id": "C126", "title": "How the harmonic functions depend on the frequencies", "statement": "Raising positive frequencies never lowers zero-point or free energy and never raises thermal energy, entropy or heat capacity. Multiplying all frequencies and temperatures by the same positive factor multiplies the energies by it and leaves entropy and heat capacity unchanged. If the frequencies follow the volume with mode Gruneisen parameters g, the free energy falls with the volume at the rate sum of w g (Uzp + Uth) / V (thermal pressure) and the entropy grows at the rate sum of w g Cv / V. A mode softening towards zero contributes without bound, whereas a mode of zero or imaginary frequency contributes nothing.", "quantifier": "all frequency arrays, all non-negative weights, all temperatures >= 0, all positive scale factors, all differentiable volume laws of the frequencies", "why_tests_cant": "inequalities, limits and derivatives over all real frequencies and temperatures", "anchors": ["quantas/utils/physics/statistical_mechanics.pyx:ho_zpe", "quantas/utils/physics/statistical_mechanics.pyx:ho_eth", "quantas/utils/physics/statistical_mechanics.pyx:ho_S", "quantas/utils/physics/statistical_mechanics.pyx:ho_F", "quantas/utils/physics/statistical_mechanics.pyx:ho_Cv"]}
{"id": "C127", "title": "Volume-independent phonons give no thermal expansion", "statement": "If the phonon frequencies do not depend on the volume, the quasi-harmonic calculation returns equilibrium volumes, bulk moduli and their pressure derivatives that do not depend on the temperature and are those of the static energies. Thermal expansion and the Gruneisen parameter vanish, Cp = Cv (from 50 temperatures on; with fewer the program exports Cp = 0, see C16), adiabatic and isothermal bulk moduli agree, and entropy, heat capacity and vibrational energies are those of the harmonic calculation at any of the input volumes.", "quantifier": "all inputs with at least degree + 1 volumes whose frequencies are the same at all volumes, all temperature and pressure grids, both schemes, both minimisations (equations of state: for every fit that does not depend on the zero of energy), all units", "why_tests_cant": "an identity of results over all energies, frequencies, weights, grids and units", "anchors": ["quantas/qha/qha.py:QHACalculator", "quantas/utils/math/fast_math.pyx:multi_interpolate_array", "quantas/utils/physics/statistical_mechanics.pyx:ho_F"]}
{"id": "C128", "title": "At an input volume the quasi-harmonic results are the harmonic ones", "statement": "Wherever the equilibrium volume at some temperature and pressure is one of the input volumes and the fitted polynomials have as many coefficients as there are volumes, internal energy, free energy, entropy, heat capacity and the vibrational energies of the quasi-harmonic calculation are those of the harmonic calculation at this volume and temperature, in both schemes.", "quantifier": "all inputs with distinct volumes, all grids and units, both schemes, all temperatures and pressures at which the equilibrium volume is an input volume", "why_tests_cant": "an identity over all inputs", "anchors": ["quantas/qha/qha.py:QHACalculator", "quantas/harmonic/harmonic.py:HACalculator", "quantas/utils/math/fast_math.pyx:multi_interpolate_array"]}
{"id": "C129", "title": "A stiffer crystal is stiffer and faster in every direction", "statement": "If every strain costs at least as much elastic energy in a second crystal as in a first, then in every direction its Young's modulus and, for every transverse direction, its shear modulus are at least as large; its Voigt, Reuss and Hill bulk, shear and Young's moduli are at least as large; and if it is not denser, its isotropic velocities and each of the three phase velocities in every direction, from the slowest to the fastest, are at least as large, as reported by both the elastic and the seismic module.", "quantifier": "all pairs of positive definite stiffness matrices ordered in energy, all densities and directions", "why_tests_cant": "it compares all pairs of stiffness matrices in all directions; a test compares two", "anchors": ["quantas/soec/utils/soec_obj.py:SOEC", "quantas/seismic/utils/seismic_obj.py:Seismic"]}
{"id": "C130", "title": "The three waves are named, bounded and reported consistently", "statement": "In every direction shear wave 1, shear wave 2 and the longitudinal wave are the slowest, the middle and the fastest wave of the crystal; density times the squares of their speeds, summed over the three waves and any three perpendicular directions, is 3 K + 10 G of the Voigt average, so no wave exceeds that bound; and, when the search finds minima, the reported ranges of the three waves are the extremes over all directions, reached along the reported axes, with anisotropy their ratio.", "quantifier": "all positive definite stiffness matrices, positive densities, directions and triads of directions", "why_tests_cant": "it concerns all directions of all crystals", "anchors": ["quantas/soec/utils/soec_obj.py:SOEC.longitudinal_wave", "quantas/soec/utils/soec_obj.py:SOEC.shear_wave_1", "quantas/soec/utils/soec_obj.py:SOEC.shear_wave_2", "quantas/soec/soec.py:SOECCalculator.phase_velocity_variation"]}
{"id": "C131", "title": "The exporter for all result files", "statement": "QuantasHDF5Export accepts the result files of Quantas and refuses other files with a message. For the file of a harmonic or quasi-harmonic run, whatever the job is called, each saved quantity can be chosen and is written as a table with one line per temperature and one cell per volume or pressure, whose numbers are those of the file to eight decimals (volumes, moduli) or thirteen significant digits (all others). Several quantities can be exported in a session; each goes to the file that was typed or, without one, to the file named after the result file and the quantity, and no other file is changed.", "quantifier": "all result files, job names, units, choices, typed file names, sessions of any length, contents of the disk", "why_tests_cant": "Job names, values and sessions are unbounded; that a text in the job name or in the description of a quantity changes how the file is read or written shows only for particular names and small values.", "anchors": ["quantas/IO/hdf5_export.py:QuantasHDF5Export", "quantas/IO/hdf5_export.py:QHATableFile", "quantas/IO/hdf5_reader.py:QuantasHDF5Reader", "quantas/harmonic/harmonic.py:export_hdf5", "quantas/qha/qha.py:export_hdf5"]}
{"id": "C132", "title": "The figures of the seismic command show every wave where it belongs", "statement": "After a scan, plotting gives, for each of the six quantities (phase and group velocity, their deviations from the isotropic velocity, power flow angle, enhancement factor), a plane figure with three panels named slow secondary, fast secondary and primary. Each panel shows the announced quantity of the wave it names at the image of every direction of the grid, marks a direction with the largest value by a square and one with the smallest by a circle, and carries the symbol of the quantity on its colour bar. The anisotropy 200(max-min)/(max+min) of each wave is written on the screen for the phase and group velocities only. The panel called primary shows the fastest wave. The figure of the ratios shows the anisotropy of the S waves, vP/vS1 and vP/vS2. On the spheres, the value at every point is that of the direction of the point itself, on both hemispheres. Each figure has a file of its own, whose name tells the quantity and the projection.", "quantifier": "all stiffness matrices and densities, all grids with at least two angles in each direction, both projections, all base names, all waves and directions of the grid", "why_tests_cant": "The values, the marks and the opposite points depend on every direction of a grid of any size and on every stiffness matrix; images can only be compared by eye for single cases.", "anchors": ["quantas/seismic/utils/seismic_plotter.py:SeismicPlotter.make_2D_plot", "quantas/seismic/utils/seismic_plotter.py:SeismicPlotter.make_2D_plot_ratios", "quantas/seismic/utils/seismic_plotter.py:SeismicPlotter.make_3D_plot", "quantas/seismic/utils/seismic_plotter.py:SeismicPlotter.anisotropy"]}
{"id": "C133", "title": "The Voigt and Reuss averages are means of the directional properties over all orientations", "statement": "For every mechanically stable stiffness, the averages printed first and the directional properties printed next agree: the mean over all directions (uniform on the sphere) of the linear compressibility is 1000/(3 K_R); the mean of 1/E over all directions is 1/E_R; the mean of 1/G over all pairs of perpendicular directions is 1/G_R; the mean of nu/E over all such pairs is nu_R/E_R; and the mean of the density times the sum of the squares of the three wave speeds is K_V + 10/3 G_V. Consequently E_R and G_R lie between the reported minimum and maximum of Young's and the shear modulus, and 1000/(3 K_R) between those of the linear compressibility. The squares of the three velocities printed for the isotropic aggregate add up to no more than the mean of those of the three waves.", "quantifier": "every positive definite 6x6 stiffness, every positive density, every eigensolver that returns an eigenbasis, every extreme reported by a search that finds minima; means are integrals over all angles", "why_tests_cant": "A test compares a few crystals on a finite grid of directions; the claim is an exact identity of integrals over the whole sphere for every triclinic stiffness.", "anchors": ["quantas/soec/utils/soec_obj.py:SOEC.averages", "quantas/soec/utils/soec_obj.py:SOEC.young_modulus", "quantas/soec/utils/soec_obj.py:SOEC.linear_compressibility", "quantas/soec/utils/soec_obj.py:SOEC.shear_modulus", "quantas/soec/utils/soec_obj.py:SOEC.poisson_ratio"]}
{"id": "C134", "title": "The quasi-harmonic results at absolute zero are those of the ground state", "statement": "In every successful quasi-harmonic run, with either interpolation scheme and either way of finding the volume, at a grid temperature of 0 K (also when typed in Celsius) and at every pressure: thermal energy, entropy and isochoric heat capacity are 0, the vibrational free energy is the zero-point energy, F = U, G = H, KS = KT, and the exported Cp - Cv, Cp and Grueneisen parameter are 0.", "quantifier": "every input, settings, units, scheme, minimisation, pressure and number of temperatures; every correct least-squares routine", "why_tests_cant": "A test checks one data set; the claim covers all data sets, polynomial degrees, units and both schemes, and the branch for fewer than 50 temperatures.", "anchors": ["quantas/qha/qha.py:QHACalculator.run", "quantas/qha/qha.py:QHACalculator._finalize_run", "quantas/utils/physics/statistical_mechanics.pyx:ho_F"]}
{"id": "C135", "title": "Quasi-harmonic energies, entropies and heat capacities respect the bounds of oscillators", "statement": "At every grid point of a quasi-harmonic run with non-negative weights, zero-point energy, thermal energy, entropy and isochoric heat capacity are not negative, thermal energy and heat capacity do not exceed the classical values (nf kB T and nf kB per cell), F_vib <= U_zp, F <= U and G <= H. (Holds with frequency interpolation; with the default interpolation of the thermodynamic functions it holds at the input volumes for fits through all the data, and fails between them: an input with positive frequencies gives negative entropy and heat capacity.)", "quantifier": "every input with non-negative weights, settings, temperature and pressure, and every volume found, inside or outside the range of the input", "why_tests_cant": "The volume found is arbitrary, including extrapolation; tests sample a few well behaved crystals.", "anchors": ["quantas/qha/qha.py:QHACalculator.run_frequency_interpolation", "quantas/qha/qha.py:QHACalculator.run_thermodynamics_interpolation"]}
{"id": "C136", "title": "Each pressure belongs to exactly one compressed volume", "statement": "For K0 > 0 and parameters in the range in which the curve stiffens, every pressure from zero up is reached at exactly one volume in (0, V0] by the Murnaghan, Birch-Murnaghan, natural strain and Vinet equations of state, so pressures and compressed volumes determine each other. For the Tait equation the volume is V0 (1 - a (1 - (1 + b P)^(-c))); it exists for every pressure when K'' = 0 and only below a finite limiting pressure when K'' < 0.", "quantifier": "all formulations, orders, admissible parameters and pressures", "why_tests_cant": "existence and uniqueness over a continuum of pressures", "anchors": ["quantas/eosfit/utils/pv_eos.py:Murnaghan.eos", "quantas/eosfit/utils/pv_eos.py:BirchMurnaghan.eos", "quantas/eosfit/utils/pv_eos.py:Vinet.eos", "quantas/eosfit/utils/pv_eos.py:NaturalStrain.eos", "quantas/eosfit/utils/pv_eos.py:Tait.eos"]}
{"id": "C137", "title": "Units have the size their names stand for", "statement": "A number converted from a named unit to another denotes the same quantity when the units are given their SI sizes (angstrom = 1e-10 m, bohr = 5.29177210903e-11 m, eV = 1.602176634e-19 J, cm^-1 = 29979245800 Hz, ...), and hence pressures and bulk moduli derived from energies per volume are right. (The code takes the CODATA constant 'Angstrom star', 1.00001495e-10 m, for the angstrom: lengths, volumes, pressures and bulk moduli in angstrom are wrong by 1.5 to 4.5 parts in 10^5.)", "quantifier": "all numbers, all named units, all quasi-harmonic runs with volumes in angstrom", "why_tests_cant": "Round-trip and consistency tests use the same constant in both directions and cannot see a wrong size; the effect is systematic for every input.", "anchors": ["quantas/utils/physics/units.py:convert_lenght", "quantas/utils/physics/units.py:convert_volume", "quantas/utils/physics/units.py:energy_to_pressure", "quantas/utils/physics/units.py:pressure_to_energy"]}
{"id": "C138", "title": "Result files name the job they come from", "statement": "The description stored in a result file names the job of the input it was computed from. (Harmonic files do. Quasi-harmonic files always say 'Job: Unknown', because the code asks the reader for an attribute it does not have; elastic and seismic files do not name the job at all.)", "quantifier": "all inputs, all unit settings, all schemes of the quasi-harmonic calculation", "why_tests_cant": "The description is free text which no numeric test looks at, and the fall-back name makes the file look valid for every input.", "anchors": ["quantas/harmonic/harmonic.py:HACalculator", "quantas/qha/qha.py:QHACalculator", "quantas/IO/qha_reader.py:QHAInputFileReader.jobname", "quantas/soec/soec.py:SOECCalculator", "quantas/seismic/seismic.py:SeismicCalculator"]}
{"id": "C139", "title": "Derivative of tabulated data", "statement": "The utility that differentiates tabulated data returns, for values of a differentiable function at increasing points, one number per point, each the derivative of the function at some place strictly between the neighbouring points; it is exact for straight lines at every point and for parabolas on an even grid at every inner point; arrays of fewer than two points or of different lengths are refused, all others are accepted.", "quantifier": "all lengths, all increasing grids (even or not), all differentiable functions", "why_tests_cant": "A test compares with a tolerance on a few smooth functions and grids; the statement covers every function and grid, and the boundary lengths.", "anchors": ["quantas/utils/math/derivative.py:derivative"]}
{"id": "C140", "title": "Thermal expansion has the sign thermodynamics gives it", "statement": "In a quasi-harmonic run with polynomial minimisation, at each pressure, the change of the equilibrium volume between two temperatures of the grid (from 0 K on) obeys the finite form of Maxwell's relation: curvature of the fitted free energy in between times change of volume equals slope of the fitted entropy with volume at a temperature in between times change of temperature. Hence a crystal whose entropy grows with volume expands on heating, one whose entropy falls contracts, and one whose entropy does not depend on volume keeps its volume. With three volumes and parabolas, a crystal whose frequencies all fall with volume expands. Where the volume grows, the exported expansion coefficient and Grueneisen parameter are positive, Cp exceeds Cv and KS exceeds KT.", "quantifier": "all inputs (energies, frequencies of either sign, weights, volumes), unit choices, both interpolation schemes, every pair of temperatures of the grid starting at 0 K, every pressure, every degree of the fit below the number of volumes", "why_tests_cant": "It relates the output at two arbitrary temperatures to an unreported temperature and volume in between, for arbitrary data; a test only compares printed volumes of one crystal.", "anchors": ["quantas/qha/qha.py:QHACalculator.minimize_volume", "quantas/qha/qha.py:QHACalculator._finalize_run", "quantas/harmonic/harmonic.py", "quantas/utils/physics/statistical_mechanics.pyx:entropy", "quantas/utils/physics/statistical_mechanics.pyx:vibrational_free_energy", "quantas/utils/physics/thermodynamics.pyx"]}
{"id": "C141", "title": "Results of an elastic run follow small errors of the moduli", "statement": "If every stiffness modulus is known with an error of at most t GPa, and the crystal resists every strain with at least l > 6 t GPa (the elastic energy is at least l/2 times the sum of the squared Voigt strains), then the perturbed crystal is still mechanically stable, the run succeeds for both, and with r = 6 t / l: Young's modulus and the shear modulus in every direction, and the Voigt, Reuss and Hill bulk, shear and Young moduli, change by a relative amount of at most r; all phase velocities in every direction (as both the elastic and the seismic command report them) and the isotropic velocities change by at most the square root of (1 +- r) over the ratio of the densities; linear compressibility and Poisson's ratio change by explicit amounts proportional to r.", "quantifier": "all symmetric 6x6 stiffness matrices, all symmetric perturbations with entries up to t, all densities, all directions", "why_tests_cant": "The bound covers a continuum of perturbations (for instance the rounding of the moduli to four decimals by the input generator) of a continuum of crystals in every direction.", "anchors": ["quantas/soec/utils/soec_obj.py:SOEC.young_modulus", "quantas/soec/utils/soec_obj.py:SOEC.shear_modulus", "quantas/soec/utils/soec_obj.py:SOEC.poisson_ratio", "quantas/soec/utils/soec_obj.py:SOEC.linear_compressibility", "quantas/soec/utils/soec_obj.py:SOEC.averages", "quantas/soec/utils/soec_obj.py:SOEC.phase_velocity", "quantas/seismic/utils/seismic_obj.py:Seismic"]}
{"id": "C142", "title": "From the output of an ab initio program to the reported elastic properties", "statement": "The stiffness moduli printed in a CRYSTAL or VASP output, turned into an input file by the input generator (with any title the user enters, or the default) and then analysed by the elastic command, give a completed report under that title whose Voigt, Reuss and Hill moduli and whose extremes over all directions of Young's modulus, linear compressibility, shear modulus and Poisson's ratio are those of the crystal with the printed moduli. They are exact when the moduli have at most four decimals and none is small enough to be neglected by the symmetry classifier, and otherwise off by no more than an error of 0.0021 GPa of the moduli can cause.", "quantifier": "all ab initio outputs with a table of moduli of a stable crystal, all titles, all directions", "why_tests_cant": "The statement composes text parsing, number formatting, symmetry classification and a search over a continuum of directions, for all outputs and all crystals; the examples of the test suite cover two outputs and do not compare the directional results.", "anchors": ["quantas/soec/commands/cmd_inpgen.py:soec_inpgen", "quantas/IO/soec_writer.py:SOECInputCreator", "quantas/interfaces/crystal.py:CrystalSOECReader.load", "quantas/interfaces/vasp.py:VASPSOECReader.load", "quantas/IO/soec_reader.py:SOECInputFileReader.load", "quantas/soec/soec.py:SOECCalculator.read_input", "quantas/soec/soec.py:SOECCalculator.run"]}
{"id": "C143", "title": "Result files describe the settings of the run", "statement": "The description kept in the result file of a harmonic or quasi-harmonic run has exactly one line for each of the scales of energy, volume, frequency, temperature (and pressure) with the unit used, and, for quasi-harmonic runs, one line for the interpolation scheme and one for the way the volume is minimised, each naming the option that was in force; files of runs with different settings have different descriptions.", "quantifier": "all job names, all unit names, all combinations of the two switches", "why_tests_cant": "Ranges over all texts for the names and all pairs of settings; a test compares one description.", "anchors": ["quantas/qha/qha.py:QHACalculator.export_hdf5", "quantas/harmonic/harmonic.py:HACalculator.export_hdf5"]}
{"id": "C144", "title": "From CRYSTAL frequency outputs to harmonic thermodynamics", "statement": "For one CRYSTAL zone-centre frequency output, or a list of such outputs of the same crystal, `quantas inpgen ha` in a new process writes an input whose text denotes one document only. `quantas ha` on this input with the default units of energy and frequency succeeds and returns, for every output and every temperature above zero, the zero point energy, thermal energy, entropy, heat capacity and vibrational free energy of Planck's oscillators with exactly the positive frequencies printed in that output, and total energies that add the printed static energy up to half a unit of its thirteenth significant digit.", "quantifier": "all directories, lists of outputs, numbers of atoms and modes, degeneracies, reference indices, plain descriptions, temperatures and both temperature units; all generated inputs for the general form, including several weighted q-points", "why_tests_cant": "The chain passes through two commands and a text file; a slip in any column, band, volume or unit would appear only for particular outputs, and the accuracy bound must hold for all of them.", "anchors": ["quantas/interfaces/crystal.py:CrystalPhononReader", "quantas/IO/qha_writer.py:QHAInputCreator", "quantas/IO/qha_reader.py:QHAInputFileReader", "quantas/harmonic/harmonic.py:HACalculator.run", "quantas/utils/physics/statistical_mechanics.pyx"]}
{"id": "C145", "title": "The harmonic functions are accurate in the arithmetic of the computer", "statement": "The zero-point energy, thermal energy, isochoric heat capacity, entropy and vibrational free energy returned for a temperature and a volume are finite, and differ from the exact sums over the modes by no more than a stated small multiple of the machine precision, in every arithmetic that rounds to 53 binary digits with library functions good to one unit in the last place (IEEE 754 binary64 among them), for every list of sampled points, every non-negative weights and every order in which the parallel loops run. It is false for the entropy and the free energy of modes with extremely small quanta: log(1 - exp(-x)) is the logarithm of zero when the quantum is below about 1e-17 k_B T.", "quantifier": "every arithmetic of 53 binary digits, every temperature, all lists of points, weights and frequencies (up to 10^9 modes), every schedule of the parallel loops", "why_tests_cant": "a test compares some values at some temperatures; the bound has to hold for all frequencies, all numbers of modes and all roundings, and the loss of digits appears only for quanta no test tries", "anchors": ["quantas/utils/physics/statistical_mechanics.pyx:ho_zpe", "quantas/utils/physics/statistical_mechanics.pyx:ho_eth", "quantas/utils/physics/statistical_mechanics.pyx:ho_S", "quantas/utils/physics/statistical_mechanics.pyx:ho_F", "quantas/utils/physics/statistical_mechanics.pyx:ho_Cv", "quantas/utils/physics/statistical_mechanics.pyx:entropy", "quantas/utils/physics/statistical_mechanics.pyx:vibrational_free_energy"]}
{"id": "C146", "title": "Fitted polynomials are evaluated accurately in the arithmetic of the computer", "statement": "A polynomial of n coefficients evaluated at an abscissa, by adding the powers (tables of frequencies and energies) or by Horner's scheme (a single curve), differs from the exact value by at most 5e-16 n, respectively 3e-16 n, times the sum of the absolute values of its terms, in every arithmetic that rounds to 53 binary digits with a power function good to one unit in the last place; the two ways therefore agree to 8e-16 n. If all terms are non-negative these are relative errors. Evaluating at one number or at an array of numbers gives the same result in every bit.", "quantifier": "every arithmetic of 53 binary digits, all lists of up to 1000 coefficients, all abscissae, all arrays of abscissae", "why_tests_cant": "a test compares some polynomials at some abscissae; the bound has to hold for every degree, coefficient, abscissa and rounding", "anchors": ["quantas/utils/math/fast_math.pyx:multi_interpolate_array", "quantas/utils/math/fast_math.pyx:multi_interpolate_scalar", "quantas/utils/math/polynomials.py:interpolate"]}
{"id": "C147", "title": "From phonon dispersion and quasi-harmonic CRYSTAL outputs to harmonic thermodynamics", "statement": "For CRYSTAL outputs of phonon dispersions on supercells of the same crystal (one output or a list of them), and for the output of a quasi-harmonic calculation on a unit cell or on a supercell, the input generator writes an input text that denotes one document only, and the harmonic command on this document returns, for each volume and every temperature above zero, the weighted mean over the sampled points of the energies, entropies and heat capacities of Planck's oscillators with the printed frequencies, on top of the printed energy divided by the number of unit cells in the supercell.", "quantifier": "all texts with the layout of these CRYSTAL outputs, any number of atoms, sampled points, volumes and files, any position of the reference, any supercell with a positive determinant, all temperature arrays above zero, in kelvin or degrees Celsius", "why_tests_cant": "a test follows the outputs in its data directory; the claim covers every output, supercell, set of points and temperature, and fails if any of the stages between the output and the exported table exchanges, drops or misweighs a point", "anchors": ["quantas/IO/qha_writer.py:QHAInputCreator", "quantas/interfaces/crystal.py:CrystalPhononReader", "quantas/interfaces/crystal.py:CrystalQHAReader", "quantas/IO/qha_reader.py:QHAInputFileReader", "quantas/harmonic/harmonic.py:HACalculator.run"]}
{"id": "C148", "title": "From CRYSTAL outputs to the equilibrium volumes of the quasi-harmonic approximation", "statement": "For CRYSTAL outputs of one crystal at four or more volumes (zone-centre vibrations, phonon dispersions, or one quasi-harmonic output) the input generator and the quasi-harmonic command with polynomial minimisation return, for every temperature and pressure, a volume at which the least-squares polynomial through the free energies of Planck's oscillators with the printed frequencies has the slope minus the pressure and is, with the term pressure times volume, smaller than nearby; the other functions are those of oscillators with frequencies interpolated at this volume, or values of polynomials fitted to the harmonic functions, according to the chosen scheme. If there is no such volume the command fails, and with fewer than four volumes the input is refused. With four volumes and polynomials of degree three it succeeds whenever one volume is favoured over a smaller and a larger one, and the reported volume lies between these.", "quantifier": "all texts with the layout of these CRYSTAL outputs, any number of atoms, points and volumes, all selectable units, degrees, temperatures above zero and pressures, all correct least-squares and root-finding routines", "why_tests_cant": "a test checks the volumes of one crystal against stored numbers; the claim ties every reported volume to the printed frequencies and energies through five programs for all crystals, temperatures and pressures", "anchors": ["quantas/qha/qha.py:QHACalculator.read_input", "quantas/qha/qha.py:QHACalculator.run", "quantas/qha/qha.py:QHACalculator.minimize_volume", "quantas/IO/qha_writer.py:QHAInputCreator", "quantas/IO/qha_reader.py:QHAInputFileReader"]}
{"id": "C149", "title": "From phonopy calculations to harmonic and quasi-harmonic results", "statement": "For phonopy calculations of one crystal (phonopy output, displacement file and VASP output under the documented names; one calculation or a list of them), `quantas inpgen ha --interface phonopy` in a new process writes an input, and `quantas ha` and `quantas qha` on that input return the results of Planck's oscillators with the frequencies of those calculations on top of the energies computed by VASP.", "quantifier": "all phonopy calculations and lists of them with integer weights and expansion matrices, all temperatures above zero, all pressures, all job names without YAML syntax", "why_tests_cant": "It composes two readers, a writer, unit conversions and the statistical mechanics for arbitrary files; examples show single files only, and a wrong unit of the static energy is invisible without following the number from the VASP output to the results.", "anchors": ["quantas/interfaces/phonopy.py:PhonopyReader", "quantas/IO/qha_writer.py:QHAInputCreator", "quantas/IO/qha_reader.py:QHAInputFileReader", "quantas/harmonic/harmonic.py:HACalculator.run", "quantas/qha/qha.py:QHACalculator"]}
{"id": "C150", "title": "Equilibrium found by the equation-of-state minimisation", "statement": "With equation-of-state minimisation, at every temperature and pressure the reported volume is the equilibrium of the fitted free energy curve: along the curve fitted to F + pV, less pV, the pressure at the reported volume is the one asked for, the reported bulk modulus is V d2A/dV2 there and the reported derivative is dK/dP there. If the free energies lie on a curve of the chosen formulation, the reported volume, bulk modulus and derivative are those of that curve at the pressure asked for.", "quantifier": "all crystals, choices of units, temperatures, pressures and formulations of the equation of state", "why_tests_cant": "Tests compare a few fits with stored numbers; they do not show that the parameters of a fit to F + pV are the thermodynamic quantities at the pressure, for every curve, pressure and unit.", "anchors": ["quantas/qha/qha.py:QHACalculator.minimize_volume", "quantas/qha/qha.py:QHACalculator.find_eos_minimum", "quantas/qha/qha.py:QHACalculator.set_target_pressure", "quantas/qha/utils/ev_eos.py:EnergyEOS.fit"]}
{"id": "C151", "title": "Log of quantas eosfit on exact data", "statement": "If the volumes (or lengths of an axis) and pressures of the input file of quantas eosfit lie on an equation of state, then whatever is answered in the session and whatever was fitted before, each fit with that equation of state writes a log that gives K0, K', K'' and V0 their true values, within the accuracy of the regression and of the five printed decimals; weights do not change this, and parameters may be held at their true values.", "quantifier": "all input files of the documented format, all data on a curve of any of the five formulations and any supported order, all sequences of answers, all fits of a session", "why_tests_cant": "Tests fit a few data sets with scripted answers; they do not cover every file, every history of answers and fits before, and every combination of order, weights and held parameters.", "anchors": ["quantas/eosfit/eosfit.py:EoSFitCalculator.run", "quantas/IO/eos_reader.py:EoSInputFileReader", "quantas/eosfit/utils/pv_eos.py:EOS.fit", "quantas/eosfit/utils/interactive.py:set_parameters"]}
{"id": "C152", "title": "Unit conversions in the arithmetic of the computer", "statement": "Every unit converter accepts and rejects the same names as in exact arithmetic, and the quantity that it returns differs from the one that it was given by a few units of relative rounding only: at most 7, 9, 13, 3 and 9 times 2^-53 for energies, pressures, frequencies, lengths and volumes, 10 times for energy densities and pressures, and 12*2^-53*(|T|+300) kelvin for temperatures; converting there and back returns the same numbers within twice that. A conversion from a unit to itself returns the numbers unchanged.", "quantifier": "all arrays, all names of units, every arithmetic with correctly rounded operations (binary64 without overflow), all positive values of the constants", "why_tests_cant": "Tests compare a few conversions with a tolerance; a bound on the error of every double through every pair of units needs an argument over the operations.", "anchors": ["quantas/utils/physics/units.py:convert_temperature", "quantas/utils/physics/units.py:convert_energy", "quantas/utils/physics/units.py:convert_pressure", "quantas/utils/physics/units.py:energy_to_pressure", "quantas/utils/physics/units.py:pressure_to_energy", "quantas/utils/physics/units.py:convert_frequency", "quantas/utils/physics/units.py:convert_lenght", "quantas/utils/physics/units.py:convert_volume"]}
{"id": "C153", "title": "From phonon calculations to the exported tables of harmonic results", "statement": "Quantas inpgen turns CRYSTAL outputs or phonopy calculations into an input file; quantas ha reads it; the generic exporter accepts the result file and, for each of the six temperature-dependent properties, writes a table whose line for a temperature above absolute zero and column for a volume show the temperature and the quantity of the harmonic crystal (thermal, total, vibrational and free energy in the energy unit, entropy and heat capacity in thousandths of it per kelvin) with the oscillators of the calculation, within the relative error of the saved numbers and the thirteen digits printed.", "quantifier": "all CRYSTAL outputs, with and without dispersion, all phonopy calculations, single files and lists of any length, all temperatures in kelvin or Celsius, all result files that hold the results with a relative error up to 1/2", "why_tests_cant": "A test compares a few printed numbers of one example; that every cell of every table belongs to the right crystal, temperature and unit needs an argument through four programs.", "anchors": ["quantas/interfaces/crystal.py:CrystalPhononReader", "quantas/interfaces/phonopy.py:PhonopyReader", "quantas/IO/qha_writer.py:QHAInputCreator", "quantas/harmonic/harmonic.py:HACalculator.run", "quantas/harmonic/harmonic.py:export_hdf5", "quantas/IO/hdf5_export.py:QuantasHDF5Export", "quantas/IO/hdf5_export.py:QHATableFile"]}
{"id": "C154", "title": "Elastic properties in the arithmetic of the computer", "statement": "Computed with rounded operations from given moduli and compliances, the directional elastic properties differ from their exact values by a bounded number of units of rounding only: Young's modulus and the shear modulus by a relative error of at most 120 and 121 times 2^-53 times the amount of cancellation (the sum of the absolute values of the compliances over the exact contraction), Poisson's ratio by 120 times 2^-53 times that of Young's modulus and one plus its size, the linear compressibility by 45 times 2^-53 times the sum of its compliances. The nine Voigt, Reuss and Hill moduli have a relative error of at most 18 times 2^-53 times the cancellation of the four sums behind them, and the averaged Poisson's ratios an error of 65 such units.", "quantifier": "all compliance and stiffness matrices, all directions, every arithmetic with correctly rounded operations and sine and cosine good to one unit in the last place, all orders in which numpy may add the terms of a bulk modulus", "why_tests_cant": "Tests compare a few values with a tolerance; whether the loops over 81 products keep the error below a bound for every crystal and direction needs an argument over all roundings.", "anchors": ["quantas/soec/utils/soec_obj.py:vector", "quantas/soec/utils/soec_obj.py:SOEC.young_modulus", "quantas/soec/utils/soec_obj.py:SOEC.linear_compressibility", "quantas/soec/utils/soec_obj.py:SOEC.shear_modulus", "quantas/soec/utils/soec_obj.py:SOEC.poisson_ratio", "quantas/soec/utils/soec_obj.py:SOEC.averages"]}
{"id": "C155", "title": "From phonon calculations to the exported tables of quasi-harmonic results", "statement": "Quantas inpgen turns CRYSTAL outputs or phonopy calculations at four or more volumes into an input file; quantas qha with polynomials reads it. If one of the fitted free energies has no equilibrium volume, the run ends with IndexError. Otherwise the generic exporter accepts the result file and writes, for every quantity but the thermal expansion, a table whose lines are the temperatures, whose columns are the pressures and whose entries are the results, within the relative error of the saved numbers and the digits printed; the table of volumes shows volumes where the fitted free energy plus pressure times volume is smallest nearby, and with the interpolation of thermodynamic functions those of entropy, heat capacity, internal and free energy show values there of least-squares polynomials through the harmonic results.", "quantifier": "all lists of CRYSTAL outputs, with and without dispersion, all quasi-harmonic CRYSTAL outputs, all lists of phonopy calculations, all temperatures, pressures, units and degrees, all names of the job, all result files that hold the results with a relative error up to 1/2", "why_tests_cant": "A test compares a few printed numbers of one example; that every cell of every table belongs to the right temperature, pressure and minimum needs an argument through four programs.", "anchors": ["quantas/interfaces/crystal.py:CrystalPhononReader", "quantas/interfaces/phonopy.py:PhonopyReader", "quantas/IO/qha_writer.py:QHAInputCreator", "quantas/qha/qha.py:QHACalculator.run", "quantas/qha/qha.py:export_hdf5", "quantas/IO/hdf5_export.py:QuantasHDF5Export", "quantas/IO/hdf5_export.py:QHATableFile"]}
{"id": "C156", "title": "From an elastic input file to the exported sections", "statement": "For an elastic input file with the moduli of a stable crystal (a full matrix or an upper triangle) and its density, quantas soec reads the crystal, and when the sections it calculates are saved with a relative error of at most one, the elastic exporter offers exactly Young's modulus, the linear compressibility, the shear modulus and Poisson's ratio, and the wave velocities if the density is positive. The selection of each writes, whatever files were loaded before, a table with the title and the unit of the quantity and 360 lines: each shows its angle from 0 to 360 degrees and, for the planes (xy), (xz) and (yz), values of this crystal along the direction at that angle, within the error of the saved numbers and half a unit of the fourth decimal.", "quantifier": "all input files with a full or upper triangular matrix and a density, all stable crystals that are not orthorhombic merely within the tolerance of the classifier, all local minimisers that descend, all exact eigenvalue solvers, all earlier history of the exporter, all angles, planes and quantities", "why_tests_cant": "A test inspects some lines of one exported file; that every line of every table belongs to the right direction, plane and quantity of the crystal in the input file needs an argument through the reader, the classifier, the closed forms, the file and the table.", "anchors": ["quantas/IO/soec_reader.py:SOECInputFileReader", "quantas/soec/soec.py:SOECCalculator.read_input", "quantas/soec/soec.py:SOECCalculator.calculate_polar_properties", "quantas/soec/soec.py:export_hdf5", "quantas/soec/utils/export.py:QuantasSOECExport", "quantas/soec/utils/table.py:SOECTableFile"]}
{"id": "C157", "title": "The reported waves are the solutions of the equation of motion", "statement": "For a symmetric stiffness matrix and a positive density, after any direction was set, every plane wave along that direction with a reported positive phase velocity and its reported polarisation obeys the equation of motion of the crystal (mass times acceleration is the divergence of the stress, Hooke's law), whatever its wave number, and at every point and time its energy flows with the reported group velocity. Conversely every plane wave along the direction that obeys the equation of motion with a positive speed has one of the three reported phase velocities, and its displacement is perpendicular to the polarisations reported for the other speeds.", "quantifier": "all symmetric stiffness matrices, positive densities, directions (angles or vectors), earlier states of the calculator, exact eigenvalue solvers, wave numbers, points and times", "why_tests_cant": "A test compares a few velocities with tabulated ones; that the reported numbers describe waves of the medium, and that no wave is missing, is a statement about every displacement field, direction and crystal.", "anchors": ["quantas/seismic/utils/seismic_obj.py:Seismic.phase_velocity", "quantas/seismic/utils/seismic_obj.py:Seismic.eigenvec", "quantas/seismic/utils/seismic_obj.py:Seismic.group_velocity", "quantas/seismic/utils/seismic_obj.py:Seismic.solve_group"]}
{"id": "C158", "title": "From an elastic input file to the exported tables of seismic waves", "statement": "For an elastic input file with a title, the moduli of a stable crystal and a positive density, quantas seismic takes the crystal, the scan of any grid of directions succeeds, and when its tables are saved with a relative error the seismic exporter offers the slow, the fast secondary and the primary wave and writes for each, whatever files were loaded before, a table with one line for every direction of the grid. The line shows, within that error and half a unit of the decimals printed, the angles of the direction, the phase velocity of that wave of the crystal and its deviation from the polycrystal (Hill) in per cent, a polarisation with which plane waves of that velocity obey the equation of motion, the group velocity with which their energy travels, with its modulus and deviation, the power flow angle in degrees between the two velocities, and the logarithm of the enhancement factor.", "quantifier": "all input files with a title, a full or upper triangular matrix and a positive density, all stable crystals, all exact eigenvalue solvers, all grids with two or more angles each, all earlier states of the calculator and histories of the exporter, all waves and directions of the grid", "why_tests_cant": "A test inspects some lines of one exported file; that every line of every table belongs to the right direction and wave of the crystal in the input file needs an argument through the reader, the Christoffel equation, the scan, the file and the table.", "anchors": ["quantas/IO/soec_reader.py:SOECInputFileReader", "quantas/seismic/seismic.py:SeismicCalculator.read_input", "quantas/seismic/seismic.py:SeismicCalculator.run", "quantas/seismic/seismic.py:SeismicCalculator.export_hdf5", "quantas/seismic/utils/seismic_obj.py:Seismic", "quantas/seismic/utils/export.py:QuantasSeismicExport"]}
{"id": "C159", "title": "A quasi-harmonic result at a temperature and a pressure does not depend on the rest of the grid", "statement": "Asking for more, fewer or other temperatures and pressures does not change what is reported at the ones kept: volume, bulk modulus and its derivative, energies, entropy, heat capacities, enthalpy and Gibbs energy at a node are those of a run asked for that node alone; a run on part of a grid that works, works; and a run fails only with an exception that one of its nodes raises alone. Thermal expansion and what is derived from it agree too when the neighbouring temperature is the same.", "quantifier": "every input, scheme, minimisation, unit choice, external fitting and root-finding routine, and every two grids of temperatures and pressures of any size", "why_tests_cant": "a test compares a few grids; the claim is for every pair of grids, and every node they share", "anchors": ["quantas/qha/qha.py:QHACalculator.run", "quantas/qha/qha.py:QHACalculator.run_frequency_interpolation", "quantas/qha/qha.py:QHACalculator.run_thermodynamics_interpolation", "quantas/qha/qha.py:QHACalculator.minimize_volume", "quantas/qha/qha.py:QHACalculator._finalize_run"]}
{"id": "C160", "title": "A crystal between two isotropic media has its moduli and wave velocities between theirs", "statement": "When a crystal stores at least the elastic energy of one isotropic medium and at most that of another at every strain, its reported Young's modulus and shear modulus in every direction, its Voigt, Reuss and Hill bulk and shear moduli, and the velocity of each of its three waves in every direction lie between those of the two media. A stable cubic crystal lies between the media of its own bulk modulus whose shear moduli are the smaller and the larger of C44 and (C11-C12)/2; Young's modulus attains the two bounds along the cube edges and the body diagonals, and the shear modulus attains both shear constants.", "quantifier": "every stable stiffness matrix, every pair of isotropic media around it, every density, every direction and pair of directions; every stable cubic crystal", "why_tests_cant": "a test looks at a few directions of a few crystals; the bounds are over all directions and all crystals", "anchors": ["quantas/soec/utils/soec_obj.py:SOEC.young_modulus", "quantas/soec/utils/soec_obj.py:SOEC.shear_modulus", "quantas/soec/utils/soec_obj.py:SOEC.averages", "quantas/soec/utils/soec_obj.py:SOEC.phase_velocity", "quantas/seismic/utils/seismic_obj.py:Seismic"]}
{"id": "C161", "title": "Phase velocities in the arithmetic of the computer", "statement": "With every operation rounded to double precision, sums taken in whatever order the libraries choose and with or without fused multiply-add, sine and cosine correct to one unit in the last place and eigenvalues correct to a fraction eta of the largest entry of the matrix, each phase velocity reported by the elastic and by the seismic calculator differs from the exact one by a relative error of at most (340 u + 5 eta) kappa + 3 u, where kappa is the largest elastic modulus over the modulus the wave probes; the two calculators agree to within twice that.", "quantifier": "every symmetric stiffness matrix, density, direction, order of summation and eigenvalue routine of stated accuracy; every wave of positive velocity whose kappa keeps the bound below one half percent", "why_tests_cant": "rounding errors depend on every digit of the input and on the order the library adds in; a test sees one of them", "anchors": ["quantas/soec/utils/soec_obj.py:SOEC.phase_velocity", "quantas/seismic/utils/seismic_obj.py:Seismic.spherical_direction", "quantas/seismic/utils/seismic_obj.py:Seismic.solve", "quantas/seismic/utils/seismic_obj.py:Seismic.phase_velocity"]}
{"id": "C162", "title": "Equations of state in the arithmetic of the computer", "statement": "When every operation is rounded to 53 binary digits and the powers, logarithms and exponentials of the library are off by at most one unit in the last place, each of the five pressure-volume equations of state returns the pressure of its formula up to 1e-12 of the bulk modulus (1e-10 for the modified Tait equation), at every volume between two thirds and three halves of the reference volume, for every pressure derivative between 1 and 12, of every order and whether or not a fit is going on; the parameters it hands back are the same up to rounding. The four energy-volume equations return the energy of their formula up to one unit in the last place of the reference energy plus 1e-11 of the product of bulk modulus and reference volume, and their pressures are accurate to 1e-12 of the bulk modulus. At the reference volume the computed pressure is exactly zero, and along a Murnaghan equation the computed pressures never increase with the volume. The modified Tait equation violates the zero at the reference volume: for some parameters rounding leaves a pressure there.", "quantifier": "All parameters and volumes in the stated ranges, all five pressure and four energy formulations, all orders, linear and fit flags, and all arithmetics with the stated accuracy (IEEE 754 with correctly rounded functions among them).", "why_tests_cant": "A test compares a few rounded results with tabulated numbers; the size of the accumulated rounding error over all volumes and parameters cannot be sampled, and the exact zero depends on the last bit of every intermediate result.", "anchors": ["quantas/eosfit/utils/pv_eos.py:Murnaghan.eos", "quantas/eosfit/utils/pv_eos.py:BirchMurnaghan.eos", "quantas/eosfit/utils/pv_eos.py:NaturalStrain.eos", "quantas/eosfit/utils/pv_eos.py:Vinet.eos", "quantas/eosfit/utils/pv_eos.py:Tait.eos", "quantas/qha/utils/ev_eos.py:EnergyEOS.murnaghan", "quantas/qha/utils/ev_eos.py:EnergyEOS.birchmurnaghan", "quantas/qha/utils/ev_eos.py:EnergyEOS.pouriertarantola", "quantas/qha/utils/ev_eos.py:EnergyEOS.vinet", "quantas/qha/utils/ev_eos.py:EnergyEOS.pressure"]}
{"id": "C163", "title": "Derived quasi-harmonic quantities in the arithmetic of the computer", "statement": "With every operation rounded to 53 binary digits, the thermal expansion is the quotient of the differences of the computed volumes and temperatures up to five halves of a unit in the last place; it is zero exactly when two successive volumes are equal and has exactly the sign of their difference; when the volumes are off by a fraction eta it is off by little more than 2 eta divided by the temperature step. From inputs good to a few units in the last place the Grueneisen parameter, the difference of the heat capacities and the adiabatic bulk modulus are good to 40, 50 and 80 halves of a unit in the last place. The computed adiabatic bulk modulus is never below the isothermal one and the computed isobaric heat capacity never below the isochoric one, and their ratios agree to 200 halves of a unit in the last place. Enthalpy and Gibbs energy are off by at most five halves of a unit in the last place of the sizes of their two terms.", "quantifier": "All tables of volumes, moduli, thermal expansions, heat capacities, energies, temperatures and pressures of any size (non-negative where stated), and all arithmetics with the stated accuracy.", "why_tests_cant": "A test compares a few numbers with tolerances chosen by hand; that differences of nearly equal volumes never lose their sign, and that rounding never puts KS below KT, must hold for every bit pattern.", "anchors": ["quantas/qha/qha.py:QHACalculator._finalize_run", "quantas/utils/physics/thermodynamics.pyx:enthalpy", "quantas/utils/physics/thermodynamics.pyx:gibbs", "quantas/utils/physics/thermodynamics.pyx:adiabatic_bulk_modulus", "quantas/utils/physics/thermodynamics.pyx:gruneisen_parameter"]}
{"id": "C164", "title": "Crystals with polynomial energies and frequencies are answered exactly", "statement": "When the static energy and the frequencies of a crystal are polynomials of the volume, of degrees not above the fitted ones, the quasi-harmonic calculation with interpolated frequencies reports, at every temperature and pressure, exactly the energies, entropy and heat capacity of a harmonic calculation made at the equilibrium volume itself, although that volume was not in the input. At absolute zero, in both interpolation schemes, the reported volume is where the energy of the ground state (static energy and half a quantum per mode) has slope -p with positive curvature, the run succeeds exactly when such a volume exists for each pressure, and two inputs that sample the same crystal at different volumes give the same volume, bulk modulus, pressure derivative and energies.", "quantifier": "All crystals with polynomial curves, all numbers of modes, q points and volumes, all temperatures, pressures and units, all correct least-squares and root-finding routines.", "why_tests_cant": "A test compares one crystal at one set of volumes with a stored result; that the answer does not depend on the sampled volumes ranges over all crystals and all choices of volumes.", "anchors": ["quantas/qha/qha.py:QHACalculator.run", "quantas/qha/qha.py:QHACalculator.run_frequency_interpolation", "quantas/qha/qha.py:QHACalculator.run_thermodynamics_interpolation", "quantas/utils/math/fast_math.pyx:multi_interpolate_array"]}
{"id": "C165", "title": "Distance of the harmonic functions from their classical values", "statement": "At every positive temperature and for positive frequencies, the vibrational energy of a cell is at least k_B T per mode and exceeds it by at most the mean of (h nu)^2 / (12 k_B T); the heat capacity is at most k_B per mode and falls short of it by at most the mean of (h nu / k_B T)^2 / 12; the free energy is at least the classical k_B T ln(h nu / k_B T) per mode and exceeds it by at most (h nu)^2 / (24 k_B T); the entropy is at least k_B (1 - ln(h nu / k_B T)) per mode and exceeds it by at most k_B (h nu / k_B T)^2 / 24. The values reported by a harmonic run in the units of the user obey the bounds for energy and heat capacity. So do those of a quasi-harmonic run that interpolates frequencies, at every node whose interpolated frequencies are positive.", "quantifier": "All numbers of q points, modes, volumes and temperatures, all positive frequencies and temperatures, all non-negative weights, all selectable units.", "why_tests_cant": "A test at a high temperature checks one number against a tolerance; an explicit bound on the distance from the classical limit must hold at every temperature and frequency.", "anchors": ["quantas/utils/physics/statistical_mechanics.pyx:ho_zpe", "quantas/utils/physics/statistical_mechanics.pyx:ho_eth", "quantas/utils/physics/statistical_mechanics.pyx:ho_S", "quantas/utils/physics/statistical_mechanics.pyx:ho_F", "quantas/utils/physics/statistical_mechanics.pyx:ho_Cv", "quantas/harmonic/harmonic.py:HACalculator.run", "quantas/qha/qha.py:QHACalculator.run_frequency_interpolation"]}
{"id": "C166", "title": "Errors of the frequencies are not amplified", "statement": "When the positive frequencies of two inputs agree to a fraction delta, in either direction and differently for each mode, the harmonic results of both agree: the zero-point energies to the fraction delta, the free energies to delta times the vibrational energy, the thermal energies to delta k_B T per mode, and entropies and heat capacities to delta k_B per mode, at every temperature including absolute zero. The values reported by two harmonic runs in the units of the user obey these bounds.", "quantifier": "All numbers of q points, modes, volumes and temperatures, all positive frequencies, all errors delta of any size, all non-negative weights, all selectable units.", "why_tests_cant": "A test perturbs a few frequencies of one crystal; that no mode, temperature or perturbation amplifies the error ranges over all of them.", "anchors": ["quantas/utils/physics/statistical_mechanics.pyx:ho_zpe", "quantas/utils/physics/statistical_mechanics.pyx:ho_eth", "quantas/utils/physics/statistical_mechanics.pyx:ho_S", "quantas/utils/physics/statistical_mechanics.pyx:ho_F", "quantas/utils/physics/statistical_mechanics.pyx:ho_Cv", "quantas/harmonic/harmonic.py:HACalculator.run"]}
{"id": "C167", "title": "Errors of the input and of the polynomial form reach the equilibrium volume with a fixed factor", "statement": "For any crystal, not only one with polynomial curves, and any input whose static energies are off by at most eps and whose frequencies are off by at most the fraction delta: the harmonic free energies are off by at most eps plus delta times the vibrational energy; at the reported volume the slope of the free energy of the crystal balances the pressure up to a fixed multiple of eps, delta times the vibrational energy and the distance of the crystal from the polynomials of the fitted degree at the sampled volumes, plus the distance of the slopes; and the reported volume is off by at most this error divided by the least curvature of the free energy. The factor depends only on the sampled volumes, the degree and the interval, and exists as soon as there are more distinct volumes than the degree.", "quantifier": "All crystals, all inputs with errors of any size, all sets of distinct volumes, degrees, temperatures, pressures and units, all correct least-squares and root-finding routines, both interpolation schemes.", "why_tests_cant": "A test perturbs one input and compares with a tolerance; a bound linear in the errors with one factor for all crystals, temperatures and pressures quantifies over all of them.", "anchors": ["quantas/qha/qha.py:QHACalculator.run", "quantas/qha/qha.py:QHACalculator.minimize_volume", "quantas/utils/math/polynomials.py:find_polynomial_minimum", "quantas/harmonic/harmonic.py:HACalculator.run"]}
{"id": "C168", "title": "The reported thermal expansion tends to the one of thermodynamics", "statement": "With polynomial minimisation of degree three or less (the default is three), for every temperature from absolute zero on and every pressure of a run that succeeds: runs of the same crystal at temperatures near it succeed; their equilibrium volumes have the derivative V*alpha with alpha = (dS/dV) / (V d2F/dV2); and to every tolerance there is a step of temperature such that any run with 50 temperatures or more that contains this temperature and pressure, and whose next temperature (for the last row, the one before) is nearer than the step, reports alphaV within the tolerance of alpha. With thermodynamic interpolation the Gruneisen parameter tends to V (dS/dV) / Cv and Cp - Cv to T (dS/dV)^2 / (d2F/dV2).", "quantifier": "all crystals, temperatures from 0 K on, pressures, tolerances, and all temperature grids of every size that contain the temperature", "why_tests_cant": "a limit over all grids, for every crystal", "anchors": ["quantas/qha/qha.py:QHACalculator._finalize_run", "quantas/qha/qha.py:QHACalculator.run_thermodynamics_interpolation", "quantas/qha/qha.py:QHACalculator.minimize_volume"]}
{"id": "C169", "title": "The reported bulk modulus is the slope of the reported volumes along the pressure", "statement": "With polynomial minimisation, thermodynamic interpolation and fits of degree 3 (the default) or less, the volumes and isothermal bulk moduli of a quasi-harmonic run at any two pressures and one temperature satisfy P2 - P1 = -(V2 - V1) (K1/V1 + K2/V2) / 2 exactly, in the units the user chose; and as the step of the pressure tends to zero the difference quotient of the volumes tends to -V/K, whatever the other temperatures and pressures of the grid are.", "quantifier": "every crystal, unit choice, temperature and pair of pressures of a successful run, every tolerance and every grid that contains the node", "why_tests_cant": "The volume comes from finding a root of the derivative of the fitted free energy and the bulk modulus from a separate evaluation of its second derivative with its own unit conversion; a test compares a few numbers, it cannot show that both describe one function for all inputs.", "anchors": ["quantas/qha/qha.py:QHACalculator._finalize_run", "quantas/qha/qha.py:QHACalculator.run_thermodynamics_interpolation", "quantas/qha/qha.py:QHACalculator.minimize_volume"]}
{"id": "C170", "title": "Reported volumes, Gibbs energies, entropies and enthalpies along the temperature obey the laws of thermodynamics", "statement": "With polynomial minimisation, thermodynamic interpolation and fits of degree 3 (the default) or less, around any temperature above absolute zero and any pressure of a successful quasi-harmonic run there are functions V, G, S and H of the temperature such that every run of the same crystal reports their values at its temperatures nearby, and at this temperature dV/dT = V alpha, dG/dT = -S, dS/dT = Cp/T and dH/dT = Cp, with the heat capacity to which the reported one tends.", "quantifier": "every crystal, unit choice, temperature above absolute zero and pressure of a successful run, and every grid of temperatures and pressures", "why_tests_cant": "Derivatives along the temperature of quantities that are found by minimisation at every node are limits over all grids; no finite set of runs shows that the columns are samples of differentiable functions that satisfy the identities.", "anchors": ["quantas/qha/qha.py:QHACalculator._finalize_run", "quantas/qha/qha.py:QHACalculator.run_thermodynamics_interpolation", "quantas/qha/qha.py:QHACalculator.minimize_volume"]}
{"id": "C171", "title": "Reported volumes, Gibbs energies, entropies and enthalpies along the pressure obey the laws of thermodynamics", "statement": "With polynomial minimisation, thermodynamic interpolation and fits of degree 3 (the default) or less, around any pressure of a successful quasi-harmonic run, at any of its temperatures, runs of the same crystal at pressures nearby succeed, and there are functions V, G, S and H of the pressure such that every run reports their values at its pressures nearby; at this pressure dV/dP = -V/KT, dG/dP = V, dS/dP = -V alpha (the relation of Maxwell with the expansion along the temperature) and dH/dP = V (1 - T alpha).", "quantifier": "every crystal, unit choice, temperature and pressure of a successful run, and every grid of temperatures and pressures", "why_tests_cant": "The columns are found by minimisation at every node and the identities concern their derivatives, which are limits over all grids; the Maxwell relation ties the columns along two axes that no single run links.", "anchors": ["quantas/qha/qha.py:QHACalculator.minimize_volume", "quantas/qha/qha.py:QHACalculator.run_thermodynamics_interpolation", "quantas/qha/qha.py:QHACalculator._finalize_run"]}
{"id": "C172", "title": "Gibbs energies along the pressure obey dG/dP = V when frequencies are interpolated", "statement": "With polynomial minimisation and frequency interpolation, the Gibbs energies that a successful quasi-harmonic run reports at two pressures differ by the pressure difference times a volume between the two reported ones. (It holds up to the difference of the two descriptions of the free energy, which vanishes at 0 K when frequencies and energies are fitted with the same degree and interpolated frequencies are positive; it does not hold with different degrees.)", "quantifier": "every crystal, unit choice, temperature, pair of pressures and degrees of the fits", "why_tests_cant": "It compares a volume found by minimising one function with an energy calculated by another, at every pair of nodes of every grid; the two agree on the crystals and degrees a test would choose.", "anchors": ["quantas/qha/qha.py:QHACalculator.minimize_volume", "quantas/qha/qha.py:QHACalculator.run_frequency_interpolation", "quantas/qha/qha.py:QHACalculator._finalize_run"]}
{"id": "C173", "title": "Angles of sections and scans in the arithmetic of the computer", "statement": "With every operation rounded to double precision, the sections of the elastic properties hold one row per requested angle; the angles start at 0, increase, stay between 0 and 2 pi and are those of equal steps up to 3 units of 2^-53 of themselves, and the degrees printed beside them are 360 i/(n-1) up to 5 such units. The polar angles and azimuths of a seismic scan start at 0, increase and are those of equal steps up to 3 units, so each component of the direction of every node is the intended one up to 2^-48.", "quantifier": "every number of angles from 2 to 2^49 and every node", "why_tests_cant": "Rounding errors depend on the number of angles in an irregular way; a test covers a few numbers of angles, while coinciding or decreasing angles or one beyond the full turn could appear for any other.", "anchors": ["quantas/soec/soec.py:SOECCalculator.calculate_polar_properties", "quantas/seismic/seismic.py:SeismicCalculator.run"]}
{"id": "C174", "title": "Energy never outruns the fastest wave along its ray", "statement": "In a stable crystal of positive density, after any direction is set, the group velocity reported for each of the three waves is at least its phase velocity and at most the phase velocity that the calculator reports for the fastest wave once the direction is set to that group velocity. So no group velocity exceeds the largest velocity of the longitudinal wave over all directions, and density times its square is at most 3 K + 10 G of the Voigt average.", "quantifier": "every stable stiffness matrix, every positive density, every direction, every wave and every earlier history of the calculator", "why_tests_cant": "The ray of a wave points elsewhere than the wave, by an angle depending on all 21 constants; a test compares a few directions of one crystal, while an error in the gradient of the Christoffel matrix may exceed the bound only along rays of other crystals.", "anchors": ["quantas/seismic/utils/seismic_obj.py:Seismic.solve_group", "quantas/seismic/utils/seismic_obj.py:Seismic.phase_velocity", "quantas/seismic/utils/seismic_obj.py:Seismic.cartesian_direction"]}
{"id": "C175", "title": "Elastic sections in the arithmetic of the computer", "statement": "With every operation rounded to double precision, the sections of Young's modulus and of the linear compressibility on the three coordinate planes have one row per requested angle. Row i holds the angle 360 i/(n-1) in degrees, up to 5 units of rounding, and the property along the direction of exactly that angle on the plane: Young's modulus up to 200 units of rounding times the cancellation in it, and the positive and the negative part of the linear compressibility, one of which is zero, up to 85 units of the sum of the absolute values of its terms. The velocities of the waves in row i are those along the direction of that angle up to a relative error of 1400 units of rounding plus five times that of the eigenvalue routine, times the ratio of the largest modulus to the one the wave probes.", "quantifier": "every compliance matrix, every plane, every number of angles from 2 to 2^49 and every row", "why_tests_cant": "The angles, the constant for the right angle, the sines and the contractions are all rounded and the errors add up differently for each matrix and each number of angles; a test compares a few rows of a few crystals.", "anchors": ["quantas/soec/soec.py:SOECCalculator.calculate_polar_properties", "quantas/soec/utils/soec_obj.py:SOEC.polar_young", "quantas/soec/utils/soec_obj.py:SOEC.polar_compressibility", "quantas/soec/utils/soec_obj.py:SOEC.polar_waves"]}
{"id": "C176", "title": "Velocities of a seismic scan in the arithmetic of the computer", "statement": "With every operation rounded to double precision, the three phase velocities that the seismic calculator stores for the node (a, b) of its scan of the hemisphere are those of the waves along the direction with the polar angle pi a/(2 (ntheta-1)) and the azimuth 2 pi b/(nphi-1), up to a relative error of 1400 units of rounding plus five times the error of the eigenvalue routine, times the ratio of the largest modulus to the one the wave probes.", "quantifier": "every symmetric stiffness matrix, every positive density, every size of the scan from 2 to 2^49, every node, every wave of positive velocity, every order of summation of the library", "why_tests_cant": "Angles, directions, contractions and eigenvalues are rounded one after the other and numpy does not fix the order of its sums; a test sees one order, one crystal and a few nodes.", "anchors": ["quantas/seismic/seismic.py:SeismicCalculator.run", "quantas/seismic/utils/seismic_obj.py:Seismic.spherical_direction", "quantas/seismic/utils/seismic_obj.py:Seismic.phase_velocity"]}
{"id": "C177", "title": "Near the reference volume the choice of the equation of state does not matter", "statement": "Every pressure-volume formulation, at every order and for volumes as well as axes, gives the pressure K0 x + K0 (1 + K') x^2/2 with the compression x = (V0 - V)/V0, up to terms of higher order than the second. So two formulations that use the same K' agree up to such terms, also when their orders differ, and two energy-volume formulations with the same parameters agree up to terms of higher order than the third.", "quantifier": "every pair of formulations, every order, every parameter set with positive V0 and K0 for which no denominator vanishes", "why_tests_cant": "Agreement up to an order is a statement about a limit of compressions; a test compares differences at a few volumes, where a wrong coefficient is hidden by the tolerance.", "anchors": ["quantas/eosfit/utils/pv_eos.py:Murnaghan.eos", "quantas/eosfit/utils/pv_eos.py:BirchMurnaghan.eos", "quantas/eosfit/utils/pv_eos.py:NaturalStrain.eos", "quantas/eosfit/utils/pv_eos.py:Vinet.eos", "quantas/eosfit/utils/pv_eos.py:Tait.eos", "quantas/qha/utils/ev_eos.py:EnergyEOS"]}
{"id": "C178", "title": "Poisson's ratios respect the stability of the crystal", "statement": "In a stable crystal the square of the reported Poisson's ratio is below the ratio of the Young's moduli along the two directions, the product of the two ratios of a pair of directions lies between 0 and 1, and the six ratios among three perpendicular directions satisfy nu_ab nu_ba + nu_bc nu_cb + nu_ca nu_ac + 2 nu_ab nu_bc nu_ca < 1. The Young's moduli along the two bisectors of a pair of directions satisfy 1/E+ + 1/E- = (1/E_a + 1/E_b + 1/G_ab)/2 - nu_ab/E_a.", "quantifier": "every positive definite stiffness matrix of any symmetry, every density, every pair and every triad of perpendicular directions, every set of angles that describes them", "why_tests_cant": "The bounds must hold for every stable crystal in every direction; a test evaluates a few crystals in a few directions, where a ratio of the wrong pair of directions still looks plausible.", "anchors": ["quantas/soec/utils/soec_obj.py:SOEC.poisson_ratio", "quantas/soec/utils/soec_obj.py:SOEC.young_modulus", "quantas/soec/utils/soec_obj.py:SOEC.shear_modulus"]}
{"id": "C179", "title": "The Gruneisen parameter of a crystal is a mean of those of its modes", "statement": "For frequencies that depend on the volume, let gamma = V (dS/dV)/Cv with the entropy and the heat capacity that the harmonic functions return. At every temperature gamma lies between the smallest and the largest mode Gruneisen parameter; for high temperatures it tends to their weighted mean; towards absolute zero it tends to the parameter of the softest modes. Between two volumes V < V' over which the mode parameters stay between lo and hi, the entropy at (V, T) lies between the entropies at V' and the temperatures T (V/V')^hi and T (V/V')^lo.", "quantifier": "all numbers of q-points and modes, all non-negative weights with a positive sum, all differentiable volume laws with positive frequencies, all positive temperatures and the limits of temperature", "why_tests_cant": "The bounds range over all volume laws and the limits over all temperatures; a test evaluates a few frequencies at a few temperatures.", "anchors": ["quantas/utils/physics/statistical_mechanics.pyx:ho_S", "quantas/utils/physics/statistical_mechanics.pyx:ho_Cv", "quantas/utils/physics/statistical_mechanics.pyx:entropy", "quantas/utils/physics/statistical_mechanics.pyx:isochoric_heat_capacity"]}
{"id": "C180", "title": "Phase velocities change gradually from one direction to another", "statement": "In a stable crystal, for any two vectors u and v that set a direction, |u+v| times the phase velocity of any wave along u+v is at most |u| times that of the same wave along u plus |v| times that of the fastest wave along v, as the seismic calculator reports them; for the fastest wave this is the convexity of its slowness surface. Hence between two directions no phase velocity changes by more than the distance of the unit vectors times the velocity V with density V^2 = 3 K + 10 G of the Voigt averages.", "quantifier": "every positive definite stiffness matrix, every positive density, all non-zero vectors and all pairs of angles, every wave, every history of the calculator", "why_tests_cant": "The inequality ranges over all pairs of directions; a test evaluates a few nodes and would not notice two waves exchanged between neighbouring nodes.", "anchors": ["quantas/seismic/utils/seismic_obj.py:Seismic.phase_velocity", "quantas/soec/utils/soec_obj.py:SOEC.phase_velocity"]}
{"id": "C181", "title": "Young's modulus changes gradually from one direction to another", "statement": "In a stable crystal the inverse square roots of the Young's moduli that the calculator returns for two directions at an angle psi differ by at most sin(psi) divided by the square root of the shear modulus it returns for their two bisectors; angles of the bisectors exist for every two directions.", "quantifier": "every positive definite stiffness matrix of any symmetry, every density, every two pairs of angles and all angles of their bisectors", "why_tests_cant": "The inequality ranges over all crystals and pairs of directions; a test samples a few nodes of a section and cannot say what happens between them.", "anchors": ["quantas/soec/utils/soec_obj.py:SOEC.young_modulus", "quantas/soec/utils/soec_obj.py:SOEC.shear_modulus"]}
{"id": "C182", "title": "A scan misses no phase velocity by more than its grid allows", "statement": "The tables that a run of the seismic calculator stores for a stable crystal represent all directions, not only the nodes of the grid: for every direction and every wave the table of this wave holds a phase velocity v' with density*(1000*(v-v'))^2 <= 10^9*(3*K_V+10*G_V)*((pi/(4*(ntheta-1)))^2+(pi/(nphi-1))^2), where v is the phase velocity in that direction and K_V, G_V are the Voigt averages. The upper hemisphere is enough for this.", "quantifier": "every positive definite stiffness matrix of any symmetry, every positive density, every grid with at least two polar angles and two azimuths, every earlier use of the object, every direction of the sphere and each of the three waves", "why_tests_cant": "A test compares nodes of a grid with nodes of another grid; what happens between the nodes concerns infinitely many directions of every crystal.", "anchors": ["quantas/seismic/seismic.py:SeismicCalculator.run", "quantas/seismic/utils/seismic_obj.py:Seismic.phase_velocity"]}
{"id": "C183", "title": "The nodes of a section determine the directions between them", "statement": "A section of Young's modulus or of the linear compressibility with ten nodes or more leaves nothing open between its nodes: two stable crystals have the same table on a coordinate plane if and only if they have the same value along every direction of that plane. So the default of 360 nodes hides no feature of these two quantities.", "quantifier": "every two positive definite stiffness matrices, each of the exact orthorhombic form if the calculator takes it for orthorhombic (C94 covers what happens otherwise), every two densities, every number of nodes from ten on, each of the three planes and every angle", "why_tests_cant": "A test compares tables at their nodes; the claim is about the infinitely many directions between them and about all pairs of crystals.", "anchors": ["quantas/soec/soec.py:SOECCalculator.calculate_polar_properties", "quantas/soec/utils/soec_obj.py:SOEC.young_modulus", "quantas/soec/utils/soec_obj.py:SOEC.linear_compressibility"]}
{"id": "C184", "title": "A stiffer equation of state gives higher pressures and larger volumes", "statement": "In a third-order fit with the Murnaghan, Birch-Murnaghan, natural strain or Vinet formulation, multiplying K0 by a factor multiplies every pressure by this factor; a greater K' gives a higher pressure at every volume but V0; and at the same positive pressure the solid with the greater K' or the greater K0 has the larger volume, for K' not below the second-order value of the formulation. The Tait formulation is not part of the claim.", "quantifier": "each of the four formulations, every positive K0, K', V0 and volume, whatever K'' holds before the call, volumetric and linear fits", "why_tests_cant": "The order of two curves must hold at every volume and for every two values of a parameter; a test compares single points.", "anchors": ["quantas/eosfit/utils/pv_eos.py:Murnaghan.eos", "quantas/eosfit/utils/pv_eos.py:BirchMurnaghan.eos", "quantas/eosfit/utils/pv_eos.py:NaturalStrain.eos", "quantas/eosfit/utils/pv_eos.py:Vinet.eos"]}
{"id": "C185", "title": "A crystal against oscillators of one frequency", "statement": "Compare the harmonic functions of a crystal with those of as many oscillators of a single frequency. With the weighted mean of the frequencies, the zero-point energies are equal, the free energy of the crystal is not above that of the oscillators, and its thermal energy and entropy are not below. With the weighted geometric mean, the free energy and the entropy of the crystal are not below those of the oscillators. The free energy is thus enclosed between two one-frequency values.", "quantifier": "all numbers of q-points and modes, all non-negative weights with a positive sum, all positive frequencies, all positive temperatures", "why_tests_cant": "The inequalities range over all frequency arrays and weights and hold with equality in the limit of equal frequencies, where a sample cannot tell a slight violation from rounding.", "anchors": ["quantas/utils/physics/statistical_mechanics.pyx:ho_zpe", "quantas/utils/physics/statistical_mechanics.pyx:ho_eth", "quantas/utils/physics/statistical_mechanics.pyx:ho_S", "quantas/utils/physics/statistical_mechanics.pyx:ho_F", "quantas/utils/physics/statistical_mechanics.pyx:zero_point_energy", "quantas/utils/physics/statistical_mechanics.pyx:thermal_energy", "quantas/utils/physics/statistical_mechanics.pyx:entropy", "quantas/utils/physics/statistical_mechanics.pyx:vibrational_free_energy"]}
{"id": "C186", "title": "Extremes across the direction of a section obey the relations of elasticity", "statement": "In every row of the sections of a stable solid, the least and greatest shear modulus and Poisson's ratio are the extremes over all transverse directions as soon as the search for them stops at a local minimum; no global search is needed. The inverses of the two shear moduli of a row add up to the inverses of the shear moduli towards any two perpendicular transverse directions. The two Poisson's ratios of a row add up to 1 - E beta / 1000 with the Young's modulus E (GPa) and the linear compressibility beta (1/TPa) of the same row of their tables.", "quantifier": "all stable stiffness matrices, all planes, all numbers of nodes and all rows, all searches that return a local minimum and its value, all pairs of perpendicular transverse directions", "why_tests_cant": "The property ranges over all crystals and directions and over every behaviour of the local search; a test sees the search stop at a few points.", "anchors": ["quantas/soec/utils/soec_obj.py:SOEC.shear_2d", "quantas/soec/utils/soec_obj.py:SOEC.poisson_2d", "quantas/soec/utils/soec_obj.py:SOEC.polar_shear", "quantas/soec/utils/soec_obj.py:SOEC.polar_poisson", "quantas/soec/soec.py:SOECCalculator.calculate_polar_properties"]}
{"id": "C187", "title": "An energy proportional to the volume acts as a pressure", "statement": "Adding q V to the static energies of a quasi-harmonic input (the usual correction of a calculated pressure by q) and lowering every requested pressure by q leaves the run with polynomial minimisation unchanged: it succeeds for the same inputs and reports the same volumes, zero-point, thermal and vibrational free energies, entropies, heat capacities, enthalpies and Gibbs energies at every temperature and pressure, and for energy polynomials of at most the fourth degree the same bulk moduli. Total energies and free energies grow by q V at the reported volume.", "quantifier": "all inputs with distinct volumes, all units, all energy polynomials of degree at least one with no more coefficients than volumes, both interpolation schemes, all temperature and pressure grids, all real q", "why_tests_cant": "The equivalence ranges over all inputs, units, grids and corrections; a test compares a few pairs of runs.", "anchors": ["quantas/qha/qha.py:QHACalculator.run", "quantas/qha/qha.py:QHACalculator.minimize_volume", "quantas/qha/qha.py:QHACalculator.numerical_bulk_modulus", "quantas/qha/qha.py:QHACalculator.run_frequency_interpolation", "quantas/qha/qha.py:QHACalculator.run_thermodynamics_interpolation", "quantas/utils/math/polynomials.py:find_polynomial_minimum"]}
