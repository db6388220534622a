{"id": "C01", "title": "Outputs start at zero", "statement": "After set_drivers, reset and run succeed with at least one driver value, the first value of every reported temperature and of heat uptake is exactly 0, for both models.", "quantifier": "every parameter set, every driver series of length >= 1, every prior history, every arithmetic (IEEE rounding included)", "why_tests_cant": "Tests check one five-element series with default parameters.", "anchors": ["src/openscm_twolayermodel/two_layer_model.py:TwoLayerModel._step", "src/openscm_twolayermodel/impulse_response_model.py:ImpulseResponseModel._step"]}
{"id": "C02", "title": "Causality", "statement": "temperature[i] and heat uptake[i] are only affected by drivers before index i: if two driver series agree on their first k values then all outputs of the two runs agree at every index <= k that both have.", "quantifier": "every pair of driver series (any two lengths), every k, both models, every arithmetic", "why_tests_cant": "Two-run hyperproperty over all pairs of series.", "anchors": ["src/openscm_twolayermodel/two_layer_model.py:TwoLayerModel._step", "src/openscm_twolayermodel/impulse_response_model.py:ImpulseResponseModel._step"]}
{"id": "C03", "title": "Last driver value has no effect", "statement": "Changing only the last driver value changes no value of any temperature or heat-uptake output.", "quantifier": "every driver series, every replacement of its last value, both models, every arithmetic", "why_tests_cant": "Two-run property over all series; never tested.", "anchors": ["src/openscm_twolayermodel/two_layer_model.py:TwoLayerModel._step", "src/openscm_twolayermodel/impulse_response_model.py:ImpulseResponseModel._step"]}
{"id": "C04", "title": "Complete output of the right length", "statement": "After set_drivers, reset, run each output series has exactly one value per driver value, and a successful run leaves the time index on the last driver.", "quantifier": "every driver series (including length 0), both models", "why_tests_cant": "Must hold for every length.", "anchors": ["src/openscm_twolayermodel/two_layer_model.py:TwoLayerModel._reset", "src/openscm_twolayermodel/two_layer_model.py:TwoLayerModel._run", "src/openscm_twolayermodel/impulse_response_model.py:ImpulseResponseModel._run"]}
{"id": "C05", "title": "run is stepping once per driver", "statement": "run() has the same effect (state and raised error) as calling step() once per driver value, and any k manual steps followed by the remaining n-k steps give the same state as one run.", "quantifier": "every state, every split of the number of steps, both models, every arithmetic", "why_tests_cant": "Quantifies over all splits and states.", "anchors": ["src/openscm_twolayermodel/two_layer_model.py:TwoLayerModel._run", "src/openscm_twolayermodel/impulse_response_model.py:ImpulseResponseModel._run", "src/openscm_twolayermodel/base.py:Model.step"]}
{"id": "C06", "title": "No overrun", "statement": "Once a run has completed, calling step() or run() again without reset raises an exception (IndexError; with the impulse response model, a single driver value and d1 = 0 the division raises first) and changes no output value; it never extrapolates or overwrites results.", "quantifier": "every completed run (non-empty drivers), both models", "why_tests_cant": "Requires all histories after a run; untested.", "anchors": ["src/openscm_twolayermodel/two_layer_model.py:TwoLayerModel._step", "src/openscm_twolayermodel/impulse_response_model.py:ImpulseResponseModel._step"]}
{"id": "C07", "title": "Reset refuses unset or NaN drivers", "statement": "reset() raises ModelStateError, and changes nothing, exactly when drivers have never been set or contain a NaN; otherwise it succeeds.", "quantifier": "every reachable state", "why_tests_cant": "Tests cover only a fresh default model.", "anchors": ["src/openscm_twolayermodel/two_layer_model.py:TwoLayerModel._reset", "src/openscm_twolayermodel/impulse_response_model.py:ImpulseResponseModel._reset"]}
{"id": "C08", "title": "Runs are repeatable", "statement": "reset() followed by run() gives the same outputs however many times it is repeated on the same object.", "quantifier": "every state with drivers set, any number of repetitions, both models, every arithmetic", "why_tests_cant": "Any number of repetitions.", "anchors": ["src/openscm_twolayermodel/two_layer_model.py:TwoLayerModel._reset", "src/openscm_twolayermodel/two_layer_model.py:TwoLayerModel._run"]}
{"id": "C09", "title": "History independence", "statement": "The outcome (outputs or error) of set_drivers + reset + run depends only on the current public parameter values and the drivers: after any history of API calls, failing ones included, the result equals that of any other object with the same public parameters.", "quantifier": "every pair of API histories ending in equal public parameters, both models, every arithmetic", "why_tests_cant": "Quantifies over all histories of calls, including ones that raised.", "anchors": ["src/openscm_twolayermodel/two_layer_model.py:TwoLayerModel", "src/openscm_twolayermodel/impulse_response_model.py:ImpulseResponseModel", "src/openscm_twolayermodel/base.py:TwoLayerVariant.set_drivers"]}
{"id": "C10", "title": "Internal magnitudes follow the public parameters", "statement": "After any history of API calls (failed ones included) what the model integrates with - every cached magnitude and both heat capacities - is the current public parameter converted to the model's unit.", "quantifier": "every API history from every successful construction, both models", "why_tests_cant": "Invariant over unbounded histories of setter calls, including failed ones.", "anchors": ["src/openscm_twolayermodel/two_layer_model.py:TwoLayerModel.du", "src/openscm_twolayermodel/two_layer_model.py:TwoLayerModel.dl", "src/openscm_twolayermodel/impulse_response_model.py:ImpulseResponseModel.d1", "src/openscm_twolayermodel/base.py:TwoLayerVariant.delta_t"]}
{"id": "C11", "title": "Setter contract", "statement": "Assigning a parameter: a non-Quantity raises TypeError, a Quantity of wrong dimension raises UnitError, and in both cases the object is unchanged; otherwise reading the parameter back gives exactly the assigned Quantity and no other public parameter changes.", "quantifier": "every parameter, every value and unit, every state", "why_tests_cant": "Tests use one bad value (34.3 and 34.3 kg) per parameter at construction only.", "anchors": ["src/openscm_twolayermodel/base.py:Model._assert_is_pint_quantity_with_units", "src/openscm_twolayermodel/two_layer_model.py", "src/openscm_twolayermodel/impulse_response_model.py"]}
{"id": "C12", "title": "Constructor contract", "statement": "Construction succeeds exactly when all arguments are Quantities of the right dimension and (impulse response) d1 < d2; on success the public parameters are the given arguments and drivers are unset; for the impulse response model d1 >= d2 (in any units) raises ValueError.", "quantifier": "every tuple of constructor arguments in any units", "why_tests_cant": "All argument combinations and unit pairs.", "anchors": ["src/openscm_twolayermodel/two_layer_model.py:TwoLayerModel.__init__", "src/openscm_twolayermodel/impulse_response_model.py:ImpulseResponseModel.__init__"]}
{"id": "C13", "title": "The short timescale stays d1", "statement": "Every ImpulseResponseModel object has d1 < d2 throughout its life (d1 is the short timescale).", "quantifier": "every API history", "why_tests_cant": "History property; the constructor check alone does not settle it. Expected to be violated: setters do not re-check.", "anchors": ["src/openscm_twolayermodel/impulse_response_model.py:ImpulseResponseModel.__init__", "src/openscm_twolayermodel/impulse_response_model.py:ImpulseResponseModel.d1", "src/openscm_twolayermodel/impulse_response_model.py:ImpulseResponseModel.d2"]}
{"id": "C14", "title": "set_drivers contract", "statement": "set_drivers raises AssertionError for non-one-dimensional input, TypeError for non-Quantity arrays and UnitError for wrong dimensions, in that order, and then changes nothing; on success erf reads back as given and no parameter, output or time index changes.", "quantifier": "every array shape, unit and state, both models", "why_tests_cant": "All shapes, units and states.", "anchors": ["src/openscm_twolayermodel/base.py:TwoLayerVariant.set_drivers", "src/openscm_twolayermodel/base.py:TwoLayerVariant.erf"]}
{"id": "C15", "title": "Two-layer runs solve the two-layer equations", "statement": "In exact arithmetic a successful TwoLayerModel run is exactly the forward-Euler solution of C dT/dt = F-(lambda0-aT)T-eps*eta*(T-T_D), C_D dT_D/dt = eta*(T-T_D) from T=T_D=0 with C, C_D = depth*1000*4181: the outputs satisfy the difference equations, and they are the only series that do. A run of more than one step reports numbers exactly if depths and time step are non-zero.", "quantifier": "every parameter set with non-zero depths and time step, every driver series", "why_tests_cant": "All parameters and series; tests recompute one step with the same expression.", "anchors": ["src/openscm_twolayermodel/two_layer_model.py:TwoLayerModel._calculate_next_temp_upper", "src/openscm_twolayermodel/two_layer_model.py:TwoLayerModel._calculate_next_temp_lower", "src/openscm_twolayermodel/two_layer_model.py:TwoLayerModel._calculate_next_rndt"]}
{"id": "C16", "title": "Reported heat uptake is the energy imbalance", "statement": "TwoLayerModel heat uptake[i+1] = F[i] - (lambda0 - a T[i]) T[i] - (eps-1) eta (T[i]-T_D[i]).", "quantifier": "every parameter set and driver series, exact arithmetic", "why_tests_cant": "The code computes it from temperature differences; the identity needs algebra for all inputs.", "anchors": ["src/openscm_twolayermodel/two_layer_model.py:TwoLayerModel._calculate_next_rndt", "docs/source/usage/impulse-response-equivalence.ipynb"]}
{"id": "C17", "title": "Energy conservation", "statement": "The time-integral of reported heat uptake up to i equals the heat stored, C*T[i] + C_D*T_D[i].", "quantifier": "every parameter set, driver series and index, exact arithmetic", "why_tests_cant": "Induction over unbounded run length.", "anchors": ["src/openscm_twolayermodel/two_layer_model.py:TwoLayerModel._step"]}
{"id": "C18", "title": "Two-layer superposition", "statement": "With a = 0, the outputs for drivers x*F + y*G are x*outputs(F) + y*outputs(G) for upper and lower temperature and heat uptake.", "quantifier": "every parameter set with a=0, all driver series F, G of equal length, all x, y", "why_tests_cant": "Hyperproperty over all pairs of runs.", "anchors": ["src/openscm_twolayermodel/two_layer_model.py:TwoLayerModel._step"]}
{"id": "C19", "title": "No forcing, no response", "statement": "If the first k driver values are zero then all outputs are zero through index k, even with state-dependent feedback (both models).", "quantifier": "every parameter set, every series, every k", "why_tests_cant": "All lengths and parameters.", "anchors": ["src/openscm_twolayermodel/two_layer_model.py:TwoLayerModel._step", "src/openscm_twolayermodel/impulse_response_model.py:ImpulseResponseModel._step"]}
{"id": "C20", "title": "Time invariance", "statement": "Delaying the drivers by k steps (prefixing k zeros) delays every output by k steps, for both models, even with state-dependent feedback.", "quantifier": "every parameter set, every series, every k", "why_tests_cant": "Two-run property over all series and delays.", "anchors": ["src/openscm_twolayermodel/two_layer_model.py:TwoLayerModel._step", "src/openscm_twolayermodel/impulse_response_model.py:ImpulseResponseModel._step"]}
{"id": "C21", "title": "Equilibrium warming", "statement": "With a=0 and constant forcing F the two-layer temperatures converge geometrically to F/lambda0 (both layers) and heat uptake to 0, whatever du, dl, efficacy and eta, when the step resolves the fast timescale; and T=T_D=F/lambda0 is the only steady state.", "quantifier": "every positive parameter set with dt <= d1, every F", "why_tests_cant": "Limit statement over unbounded time.", "anchors": ["src/openscm_twolayermodel/two_layer_model.py:TwoLayerModel", "docs/source/usage/one-layer-model.ipynb"]}
{"id": "C22", "title": "Two-layer response is bounded", "statement": "With a=0 and resolved time step, forcing within [0,M] gives temperatures of both layers within [0, M/lambda0] at all times (and symmetric bounds for |F| <= M).", "quantifier": "every positive parameter set with dt*(lambda0+eps*eta)<=C and dt*eta<=C_D, every bounded driver series of any length", "why_tests_cant": "Invariant over unbounded time.", "anchors": ["src/openscm_twolayermodel/two_layer_model.py:TwoLayerModel._step"]}
{"id": "C23", "title": "More forcing, more warming", "statement": "With a=0 and resolved time step, pointwise larger forcing gives pointwise larger temperatures in both layers; the same holds unconditionally for both boxes of the impulse response model.", "quantifier": "all pairs of ordered driver series", "why_tests_cant": "Two-run property.", "anchors": ["src/openscm_twolayermodel/two_layer_model.py:TwoLayerModel._step", "src/openscm_twolayermodel/impulse_response_model.py:ImpulseResponseModel._step"]}
{"id": "C24", "title": "eta=0 is a one-layer model", "statement": "With eta = 0 the lower layer stays at 0, and upper temperature and heat uptake do not depend on dl or efficacy; heat uptake is C dT/dt of the upper layer alone.", "quantifier": "every parameter set with eta=0, every series", "why_tests_cant": "Two-run property; documented use only plotted in a notebook.", "anchors": ["src/openscm_twolayermodel/two_layer_model.py:TwoLayerModel", "docs/source/usage/one-layer-model.ipynb"]}
{"id": "C25", "title": "Efficacy only rescales the deep ocean", "statement": "Two-layer temperatures depend on efficacy, eta and dl only through efficacy*eta and efficacy*dl: replacing (efficacy, eta, dl) by (k*efficacy, eta/k, dl/k) leaves both temperature series unchanged.", "quantifier": "every parameter set, every k != 0, every series (any a)", "why_tests_cant": "Two-run property over a parameter family.", "anchors": ["src/openscm_twolayermodel/two_layer_model.py:TwoLayerModel", "docs/source/usage/impulse-response-equivalence.ipynb"]}
{"id": "C26", "title": "State dependence amplifies warming and can run away", "statement": "For a >= 0 and non-negative forcing with resolved step, temperatures are at least those with a=0; and if F > lambda0^2/(4a) is held constant no steady state exists and upper temperature exceeds every bound.", "quantifier": "every such parameter set and series", "why_tests_cant": "Unbounded-time behaviour.", "anchors": ["src/openscm_twolayermodel/two_layer_model.py:TwoLayerModel._calculate_next_temp_upper"]}
{"id": "C27", "title": "Forward-Euler stability limit", "statement": "Time steps longer than twice the fast timescale make the two-layer response to any non-zero constant forcing grow without bound although the physical system is stable; run_scenarios does not detect it.", "quantifier": "every positive parameter set with a=0 and dt > 2*d1, every F != 0", "why_tests_cant": "Asymptotic statement; regression tests only use stable settings.", "anchors": ["src/openscm_twolayermodel/two_layer_model.py:TwoLayerModel._step", "src/openscm_twolayermodel/base.py:TwoLayerVariant._select_timestep"]}
{"id": "C28", "title": "Impulse response boxes are exact", "statement": "For drivers held constant within each step, Box i of a run equals at every step the value of the solution of d_i T' = q_i F - T from T=0, with no discretisation error.", "quantifier": "every q, every d != 0, every delta_t, every series", "why_tests_cant": "ODE solution for all inputs.", "anchors": ["src/openscm_twolayermodel/impulse_response_model.py:ImpulseResponseModel._calculate_next_temp"]}
{"id": "C29", "title": "Impulse response temperatures do not depend on the time step", "statement": "Splitting every time step into m equal sub-steps with the driver repeated gives, at the original times, the same box temperatures.", "quantifier": "every m >= 1, every series and parameter set, exact arithmetic", "why_tests_cant": "Quantifies over all refinements; tests compare one refinement at 6e-3 tolerance.", "anchors": ["src/openscm_twolayermodel/impulse_response_model.py:ImpulseResponseModel._calculate_next_temp"]}
{"id": "C30", "title": "Impulse response superposition", "statement": "Box temperatures, surface temperature and heat uptake for x*F+y*G are the same combination of those for F and G.", "quantifier": "every parameter set for which the run succeeds, all series, all x, y", "why_tests_cant": "Hyperproperty.", "anchors": ["src/openscm_twolayermodel/impulse_response_model.py:ImpulseResponseModel._step"]}
{"id": "C31", "title": "Impulse response is bounded and reaches equilibrium", "statement": "For positive q, d and any time step, forcing in [lo,hi] with lo<=0<=hi keeps Box i in [q_i*lo, q_i*hi]; constant F gives exactly q_i*F*(1-exp(-i*dt/d)), hence convergence to (q1+q2)*F.", "quantifier": "every positive parameter set, any time step, every series length", "why_tests_cant": "Unbounded time and all steps.", "anchors": ["src/openscm_twolayermodel/impulse_response_model.py:ImpulseResponseModel._calculate_next_temp"]}
{"id": "C32", "title": "Surface temperature is the sum of the boxes", "statement": "The reported Surface Temperature series is the element-wise sum of Box 1 and Box 2, and the reported units are delta_degC, delta_degC, delta_degC and W/m^2 (two-layer: delta_degC, delta_degC, W/m^2).", "quantifier": "every state, every arithmetic", "why_tests_cant": "All states.", "anchors": ["src/openscm_twolayermodel/impulse_response_model.py:ImpulseResponseModel._get_run_output_tss", "src/openscm_twolayermodel/two_layer_model.py:TwoLayerModel._get_run_output_tss"]}
{"id": "C33", "title": "Impulse response heat uptake is the energy imbalance", "statement": "For objects whose q1 is given in the model's own unit K/(W/m^2): heat uptake[i+1] = F[i] - lambda0*T - (eps-1)*eta*(T - T_D) with T = Box1+Box2, T_D = phi1*Box1+phi2*Box2 and lambda0, eta, phi of the equivalent two-layer model.", "quantifier": "every valid parameter set with q1 in delta_degC/(W/m^2) (the other units arbitrary; C44 shows why q1's unit matters), every series", "why_tests_cant": "All parameters, including efficacy != 1.", "anchors": ["src/openscm_twolayermodel/impulse_response_model.py:ImpulseResponseModel._calculate_next_rndt", "docs/source/usage/impulse-response-equivalence.ipynb"]}
{"id": "C34", "title": "Efficacy does not alter the impulse response temperatures", "statement": "Two impulse response models that differ only in efficacy give identical box temperatures whenever both runs succeed.", "quantifier": "every pair of efficacies, every series, every arithmetic", "why_tests_cant": "Two-run property.", "anchors": ["src/openscm_twolayermodel/impulse_response_model.py:ImpulseResponseModel._step", "docs/source/usage/impulse-response-equivalence.ipynb"]}
{"id": "C35", "title": "Geoffroy relations", "statement": "The helper parameters satisfy a1+a2=1, a1/tau1+a2/tau2=lambda0/C, a1 tau1+a2 tau2=(C+eps C_D)/lambda0, a1 tau2+a2 tau1=C_D/eta, tau1 tau2=C C_D/(lambda0 eta), C+phi_i eps C_D=lambda0 tau_i, phi1 a1+phi2 a2=1, phi1 phi2=-C/(eps C_D), phi1 a1/tau1+phi2 a2/tau2=0.", "quantifier": "every positive du, dl, lambda0, efficacy, eta in any compatible units", "why_tests_cant": "Tests check one parameter set numerically.", "anchors": ["src/openscm_twolayermodel/base.py:_calculate_geoffroy_helper_parameters", "tests/unit/test_two_layer_model_unit.py:test_calculate_geoffroy_helper_parameters"]}
{"id": "C36", "title": "Two-layer to impulse response conversion is usable", "statement": "For positive parameters and a=0 get_impulse_response_parameters succeeds, all returned values are positive with d1 < d2, and ImpulseResponseModel(**result) is accepted; for a != 0 it raises ValueError.", "quantifier": "every positive parameter set in any compatible units", "why_tests_cant": "All parameters; the constructor's d1<d2 check must never fire.", "anchors": ["src/openscm_twolayermodel/two_layer_model.py:TwoLayerModel.get_impulse_response_parameters", "src/openscm_twolayermodel/impulse_response_model.py:ImpulseResponseModel.__init__"]}
{"id": "C37", "title": "Impulse response to two-layer conversion is usable", "statement": "For positive q1, q2, efficacy, d1 and d2 with d1 different from d2 (in either order), get_two_layer_parameters succeeds, all returned values are positive and TwoLayerModel(**result) is accepted.", "quantifier": "every such parameter set in any compatible units", "why_tests_cant": "All parameters; positivity of the deep ocean depth needs a proof.", "anchors": ["src/openscm_twolayermodel/impulse_response_model.py:ImpulseResponseModel.get_two_layer_parameters"]}
{"id": "C38", "title": "Round trip through the two-layer parameters", "statement": "Converting impulse response parameters to two-layer parameters and back returns physically the same q1, q2, d1, d2, efficacy.", "quantifier": "every positive q1, q2, efficacy, 0<d1<d2, any units", "why_tests_cant": "Tests check one parameter set.", "anchors": ["src/openscm_twolayermodel/impulse_response_model.py:ImpulseResponseModel.get_two_layer_parameters", "src/openscm_twolayermodel/two_layer_model.py:TwoLayerModel.get_impulse_response_parameters"]}
{"id": "C39", "title": "Round trip through the impulse response parameters", "statement": "Converting two-layer parameters (a=0) to impulse response parameters and back returns physically the same du, dl, lambda0, efficacy, eta.", "quantifier": "every positive parameter set, any units", "why_tests_cant": "Not tested; needs algebra with square roots for all inputs.", "anchors": ["src/openscm_twolayermodel/two_layer_model.py:TwoLayerModel.get_impulse_response_parameters", "src/openscm_twolayermodel/impulse_response_model.py:ImpulseResponseModel.get_two_layer_parameters"]}
{"id": "C40", "title": "The two models are the same system", "statement": "Box1+Box2 and phi1*Box1+phi2*Box2, built from solutions of the box equations with the converted parameters, solve the continuous two-layer equations, and the two-layer Euler scheme is exactly the sum of Euler schemes for the two boxes.", "quantifier": "every positive parameter set with a=0, every forcing", "why_tests_cant": "Mathematical equivalence over all inputs.", "anchors": ["docs/source/usage/impulse-response-equivalence.ipynb", "src/openscm_twolayermodel/two_layer_model.py:TwoLayerModel.get_impulse_response_parameters"]}
{"id": "C41", "title": "Equivalent models agree up to a stated time-step error", "statement": "With converted parameters and dt <= d1, upper-layer temperature and impulse response surface temperature differ at every step by at most dt*max|F|/C.", "quantifier": "every positive parameter set with a=0, every driver series of any length", "why_tests_cant": "Tests compare three configurations on one series with atol=0.1.", "anchors": ["tests/integration/test_twolayer_impulse_response_equivalence.py", "src/openscm_twolayermodel/two_layer_model.py", "src/openscm_twolayermodel/impulse_response_model.py"]}
{"id": "C42", "title": "Equivalent models agree on heat uptake", "statement": "With converted parameters and dt <= d1, the heat uptake of the two models differs at every step by at most a constant times dt*max|F|, with the constant given explicitly by the parameters; the two-layer parameters are in the model's own units (du and dl in the same unit, eta in W/m^2/delta_degC, efficacy dimensionless).", "quantifier": "every positive parameter set with a=0 in those units, every driver series", "why_tests_cant": "As above.", "anchors": ["tests/integration/test_twolayer_impulse_response_equivalence.py", "src/openscm_twolayermodel/impulse_response_model.py:ImpulseResponseModel._calculate_next_rndt"]}
{"id": "C43", "title": "Two-layer results do not depend on the units parameters are given in", "statement": "Two TwoLayerModel objects whose parameters are physically equal but expressed in different compatible units give identical outputs for every driver series.", "quantifier": "every unit choice for every parameter, every series, exact arithmetic", "why_tests_cant": "All unit combinations.", "anchors": ["src/openscm_twolayermodel/two_layer_model.py", "src/openscm_twolayermodel/base.py:Model._assert_is_pint_quantity_with_units"]}
{"id": "C44", "title": "Impulse response results do not depend on the units parameters are given in", "statement": "As the two-layer property, for the impulse response model: box temperatures and heat uptake are the same whatever compatible units q1, q2, d1, d2, efficacy are given in.", "quantifier": "every unit choice, every series", "why_tests_cant": "All unit combinations. Violated by the code for heat uptake: lambda0.magnitude is used without conversion, so heat uptake depends on the unit of q1 (proved, with the size of the error); the temperatures do not depend on units (proved).", "anchors": ["src/openscm_twolayermodel/impulse_response_model.py:ImpulseResponseModel._calculate_next_rndt", "src/openscm_twolayermodel/impulse_response_model.py:ImpulseResponseModel.get_two_layer_parameters"]}
{"id": "C45", "title": "Efficacy other than 1 is accepted in every unit system", "statement": "A run with efficacy != 1 succeeds for every compatible choice of parameter units.", "quantifier": "every unit choice", "why_tests_cant": "All unit combinations. Violated by the code: the result's unit string is compared with 'watt / meter ** 2'; the exact condition on the units under which a run succeeds is proved.", "anchors": ["src/openscm_twolayermodel/impulse_response_model.py:ImpulseResponseModel._calculate_next_rndt"]}
{"id": "C46", "title": "Driver units do not matter", "statement": "Drivers given in any unit compatible with W/m^2 produce the outputs of the same physical forcing given in W/m^2; incompatible units raise UnitError.", "quantifier": "every compatible unit, every series, both models", "why_tests_cant": "All units; tests use kW/m^2 on one series.", "anchors": ["src/openscm_twolayermodel/base.py:TwoLayerVariant.erf", "src/openscm_twolayermodel/base.py:TwoLayerVariant.run_scenarios"]}
{"id": "C47", "title": "run_scenarios equals running each scenario by hand", "statement": "For each selected input series, run_scenarios returns the driver series and the outputs that set_drivers, reset, run on that series alone would give with the selected time step.", "quantifier": "every set of input series, both models, every arithmetic", "why_tests_cant": "All inputs; tests use two series.", "anchors": ["src/openscm_twolayermodel/base.py:TwoLayerVariant.run_scenarios"]}
{"id": "C48", "title": "Scenarios do not influence each other", "statement": "The results for one input series do not depend on which other series are in the same call (for the same time axis) nor on anything run before on the object.", "quantifier": "every set of series, every prior history", "why_tests_cant": "Hyperproperty over input sets and histories.", "anchors": ["src/openscm_twolayermodel/base.py:TwoLayerVariant.run_scenarios"]}
{"id": "C49", "title": "Only World driver series are run", "statement": "run_scenarios runs exactly the series matching driver_var in region World, in input order; if there is none it raises ValueError and leaves the object unchanged.", "quantifier": "every input", "why_tests_cant": "All inputs.", "anchors": ["src/openscm_twolayermodel/base.py:TwoLayerVariant.run_scenarios"]}
{"id": "C50", "title": "Output metadata", "statement": "Every returned series carries its driver's metadata with only variable, unit, climate_model, the saved parameter columns and run_idx set; climate_model is the model's name, parameter columns hold the current parameter values, run_idx numbers the inputs.", "quantifier": "every input, every parameter set", "why_tests_cant": "All metadata.", "anchors": ["src/openscm_twolayermodel/base.py:TwoLayerVariant.run_scenarios", "src/openscm_twolayermodel/base.py:TwoLayerVariant._create_ts"]}
{"id": "C51", "title": "Time-step selection", "statement": "The step is one year exactly when consecutive times differ by one calendar year throughout, otherwise one month exactly when all gaps are 28 to 31 days inclusive, otherwise NotImplementedError and the object is unchanged.", "quantifier": "every time axis", "why_tests_cant": "All time axes.", "anchors": ["src/openscm_twolayermodel/base.py:TwoLayerVariant._select_timestep"]}
{"id": "C52", "title": "Calendar axes get the right step", "statement": "An axis of one timestamp per consecutive calendar year gets one year; an axis of month starts gets one month.", "quantifier": "every start and length in the proleptic Gregorian calendar", "why_tests_cant": "All axes; leap-year and century rules. Violated by the code for a two-point axis December-January, which is taken to be yearly; proved for all other month axes of at least two points.", "anchors": ["src/openscm_twolayermodel/base.py:TwoLayerVariant._select_timestep"]}
{"id": "C53", "title": "Missing values", "statement": "Each returned series has values exactly at its driver's non-missing times, and consecutive model steps correspond to consecutive points of the time axis.", "quantifier": "every pattern of missing values", "why_tests_cant": "All patterns. Violated by the code in the second part: interior gaps are silently closed up, so a step of one year then spans several. Proved: the first part, and the second for series whose missing values are only at the ends.", "anchors": ["src/openscm_twolayermodel/base.py:TwoLayerVariant.run_scenarios"]}
{"id": "C54", "title": "A failed run_scenarios does no lasting damage", "statement": "If run_scenarios raises, all public parameters other than delta_t are unchanged, and a later call behaves as on an object that never failed.", "quantifier": "every input and every failure point", "why_tests_cant": "All failure points.", "anchors": ["src/openscm_twolayermodel/base.py:TwoLayerVariant.run_scenarios"]}
{"id": "C55", "title": "Results can be fed back in", "statement": "run_scenarios applied to its own output (same object, same driver_var) returns that output again, provided driver_var does not match an output variable and every time of the axis has a value in some selected series.", "quantifier": "every such input whose run succeeds", "why_tests_cant": "All inputs.", "anchors": ["src/openscm_twolayermodel/base.py:TwoLayerVariant.run_scenarios"]}
{"id": "C56", "title": "No silent merging of scenarios", "statement": "Input series whose metadata become identical once climate_model and the parameter columns are overwritten, or a driver with the name and unit of an output, are rejected with an error rather than merged.", "quantifier": "every input", "why_tests_cant": "All inputs.", "anchors": ["src/openscm_twolayermodel/base.py:TwoLayerVariant.run_scenarios"]}
{"id": "C57", "title": "ECS conversion", "statement": "convert_lambda_to_ecs(-lambda0, f2x) is the equilibrium warming of the models with feedback lambda0 under constant forcing f2x; it inverts lambda = -f2x/ecs; non-Quantities raise TypeError (lambda checked first).", "quantifier": "every non-zero lambda0 and f2x in any units", "why_tests_cant": "Links two modules; all values and units.", "anchors": ["src/openscm_twolayermodel/utils.py:convert_lambda_to_ecs"]}
{"id": "C58", "title": "Version string", "statement": "__version__ of a clean checkout exactly on tag vX is X; otherwise it is X followed by + (or . if X has a + already) and DISTANCE.gHASH and, if dirty, .dirty; untagged gives 0+untagged.DISTANCE.gHASH[.dirty]; a failed parse gives 'unknown' and an error.", "quantifier": "every tag, distance, hash and dirty flag", "why_tests_cant": "All git states.", "anchors": ["src/openscm_twolayermodel/_version.py:render_pep440", "src/openscm_twolayermodel/_version.py:render", "src/openscm_twolayermodel/_version.py:git_pieces_from_vcs"]}
{"id": "C59", "title": "git describe parsing round trip", "statement": "Parsing TAG-NUM-gHEX[-dirty] recovers exactly the tag, distance, hash and dirtiness, also when TAG contains hyphens.", "quantifier": "every tag with the prefix, every distance, every hex hash", "why_tests_cant": "All strings.", "anchors": ["src/openscm_twolayermodel/_version.py:git_pieces_from_vcs"]}
{"id": "C60", "title": "run_scenarios returns the physics", "statement": "In exact arithmetic the temperature and heat uptake values run_scenarios returns for a driver are the unique solution of the model's equations (two-layer difference equations; exact exponential box updates and energy imbalance) for that driver's values, with the public parameters in SI-consistent units and the selected step.", "quantifier": "every frame of input series, time axis with a supported step, model reachable by any history", "why_tests_cant": "End-to-end over all frames, histories, parameters and units.", "anchors": ["src/openscm_twolayermodel/base.py:run_scenarios", "src/openscm_twolayermodel/two_layer_model.py", "src/openscm_twolayermodel/impulse_response_model.py"]}
{"id": "C61", "title": "Versions tell builds apart", "statement": "Two checkouts described from tags without '+' report the same version only if the release, number of commits since and dirtiness agree, and the abbreviated commit hash too unless both are clean checkouts of the tag itself; builds after one tag are told apart even if it contains '+'.", "quantifier": "every pair of git states", "why_tests_cant": "Injectivity over all strings.", "anchors": ["src/openscm_twolayermodel/_version.py:render_pep440", "src/openscm_twolayermodel/_version.py:get_versions"]}
{"id": "C62", "title": "Other version styles", "statement": "The git-describe styles reproduce what git describe prints without the prefix; an unknown style raises ValueError exactly when the pieces carry no error. The styles pep440-pre, pep440-post and pep440-old render tag, distance, dirtiness and short hash as their documentation says, also without a tag.", "quantifier": "every git state, every style string", "why_tests_cant": "All strings.", "anchors": ["src/openscm_twolayermodel/_version.py:render", "src/openscm_twolayermodel/_version.py:render_git_describe_long"]}
{"id": "C63", "title": "Versions of git archives", "statement": "In a git archive the version is the smallest tag starting with v (refs marked 'tag: ' preferred, otherwise refs with a digit), whatever order git lists refs in; without one it is 0+unknown with an error; git and directories are not asked.", "quantifier": "every list of refs", "why_tests_cant": "All ref lists and orders.", "anchors": ["src/openscm_twolayermodel/_version.py:git_versions_from_keywords"]}
{"id": "C64", "title": "Version precedence and failures", "statement": "Keywords take precedence over git, git over the directory name, and otherwise the version is 0+unknown; computing the version raises only if git answers rev-parse and describe but then show or rev-list fails. A git command that exits with a non-zero status or cannot be started counts as failed whatever it printed.", "quantifier": "every keyword content, path and answer of git", "why_tests_cant": "All failure combinations.", "anchors": ["src/openscm_twolayermodel/_version.py:get_versions", "src/openscm_twolayermodel/_version.py:git_pieces_from_vcs"]}
{"id": "C65", "title": "Version from the directory name", "statement": "Without keywords and git the version is V if the innermost of the root, its parent and grandparent whose name starts with openscm_twolayermodel- is openscm_twolayermodel-V; if there is none it is 0+unknown.", "quantifier": "every path", "why_tests_cant": "All paths.", "anchors": ["src/openscm_twolayermodel/_version.py:versions_from_parentdir"]}
{"id": "C66", "title": "Runs approximate the differential equations with a bounded, first-order error", "statement": "For positive parameters, linear feedback and a time step no longer than the fast timescale, the temperatures reported by a two-layer run stay within (time step x largest forcing / upper heat capacity + within-step forcing variation / feedback) of the solution of the two-layer differential equations under the forcing the drivers sample, at every time point and for runs of any length; for an impulse response run the only error is the within-step forcing variation times q.", "quantifier": "all reachable objects with positive parameters and a=0, all step lengths up to the fast timescale, all driver series of any length, all continuous-time forcings sampled by them", "why_tests_cant": "the bound is over all forcings and run lengths and compares with the solution of a differential equation, which no finite set of runs determines", "anchors": ["src/openscm_twolayermodel/two_layer_model.py: TwoLayerModel._step, _calculate_next_temp_upper, _calculate_next_temp_lower", "src/openscm_twolayermodel/impulse_response_model.py: ImpulseResponseModel._step, _calculate_next_temp"]}
{"id": "C67", "title": "Floating-point rounding errors do not accumulate over a run", "statement": "With every arithmetic operation rounded (relative error u, e.g. IEEE double precision), the series reported by a run differ from the exact solution of the discrete equations by at most a constant multiple of u times the forcing scale; the constant depends on the parameters but not on the number of time steps. For the default models in double precision under forcings within 100 W/m^2 the temperature error is below 1e-9 K and the heat uptake error below 1e-7 W/m^2, whatever the run length. The same holds for the heat uptake of an impulse response model with an efficacy other than 1, whose every step converts the parameters; for ImpulseResponseModel(efficacy=e), e in [0.5, 2], the error is below 1e-6 W/m^2.", "quantifier": "all roundings with relative error u, all reachable objects with positive parameters (two-layer: a=0 and a step that resolves both layers; impulse response heat uptake: parameters in the units of the model, any efficacy), all driver series of any length, no overflow or underflow of the intermediate scales", "why_tests_cant": "tests compare with recorded outputs at a tolerance; they cannot show that rounding errors stay bounded for every forcing and every run length", "anchors": ["src/openscm_twolayermodel/two_layer_model.py: TwoLayerModel._step", "src/openscm_twolayermodel/impulse_response_model.py: ImpulseResponseModel._step"]}
{"id": "C68", "title": "Drivers are shared with the caller", "statement": "After set_drivers(q), writing into q's array changes what the next reset and run use exactly if q is in W/m^2: the run then is the run with the new values. If q is in another compatible unit, the run uses the values set_drivers saw, although erf reads back as the new values. Writing a NaN makes the next reset raise ModelStateError in both cases.", "quantifier": "both classes, every object, every driver array of any length, every new content, every unit compatible with W/m^2", "why_tests_cant": "Depends on whether the conversion copies, for every unit; the tests never modify an array after handing it over.", "anchors": ["src/openscm_twolayermodel/base.py: TwoLayerVariant.erf (setter), TwoLayerVariant.set_drivers", "src/openscm_twolayermodel/two_layer_model.py: TwoLayerModel._reset, _run, _step", "src/openscm_twolayermodel/impulse_response_model.py: ImpulseResponseModel._reset, _run, _step"]}
{"id": "C69", "title": "Running before drivers are set", "statement": "As long as no drivers have been accepted, reset() refuses with ModelStateError and changes nothing, whatever else was called before. The first run() or step() does not raise and leaves a single zero per series (a single NaN before it); a further run() or step() raises AttributeError, those after it IndexError, and the series stay as they are.", "quantifier": "both classes, every accepted set of constructor arguments, every history of public calls in which no drivers were accepted", "why_tests_cant": "Quantifies over all constructor arguments and all histories; the tests only check that reset raises.", "anchors": ["src/openscm_twolayermodel/two_layer_model.py: TwoLayerModel.__init__, _run, _step, _reset", "src/openscm_twolayermodel/impulse_response_model.py: ImpulseResponseModel.__init__, _run, _step, _reset"]}
{"id": "C70", "title": "Errors in the forcing are not amplified", "statement": "Two driver series that differ by at most d at every point give temperatures that differ by at most d/lambda0 (two-layer, a = 0, time step resolving both layers) and boxes that differ by at most q1 d and q2 d (impulse response, any time step), at every point of runs of any length.", "quantifier": "all reachable objects with positive parameters, all pairs of driver series of any length", "why_tests_cant": "A bound over all pairs of forcings and all run lengths.", "anchors": ["src/openscm_twolayermodel/two_layer_model.py: TwoLayerModel._step", "src/openscm_twolayermodel/impulse_response_model.py: ImpulseResponseModel._step"]}
{"id": "C71", "title": "Stabilised forcing gives stabilised climate", "statement": "If the forcing converges to c the reported temperatures converge to c/lambda0 and heat uptake to 0 (two-layer, a = 0, positive parameters, time step below twice the fast timescale) and the boxes to q1 c and q2 c (impulse response, any positive time step); when that accuracy is reached does not depend on the length of the run. Removing the forcing brings everything back to 0.", "quantifier": "all reachable objects with positive parameters, all converging forcings, all accuracies, all runs", "why_tests_cant": "A statement about limits of arbitrarily long runs.", "anchors": ["src/openscm_twolayermodel/two_layer_model.py: TwoLayerModel._step", "src/openscm_twolayermodel/impulse_response_model.py: ImpulseResponseModel._step"]}
{"id": "C72", "title": "Stronger feedback, less warming", "statement": "Raising lambda0 and nothing else never raises a reported temperature under non-negative forcing (a >= 0, resolved time step); in the impulse response model each box is exactly proportional to its q, for every forcing and time step.", "quantifier": "all pairs of reachable objects differing in lambda0 (in q1, q2), all non-negative (all) driver series", "why_tests_cant": "Compares all pairs of parameter values under all forcings.", "anchors": ["src/openscm_twolayermodel/two_layer_model.py: TwoLayerModel._calculate_next_temp_upper", "src/openscm_twolayermodel/impulse_response_model.py: ImpulseResponseModel._calculate_next_temp"]}
{"id": "C73", "title": "Rising forcing, rising temperatures", "statement": "Under forcing that starts non-negative and never decreases, the reported temperatures never decrease, the lower layer never exceeds the upper one and heat uptake is never negative (two-layer, a >= 0, resolved time step); the boxes never decrease and stay below their equilibrium with the forcing (impulse response).", "quantifier": "all reachable objects with such parameters, all non-decreasing driver series of any length", "why_tests_cant": "All monotone forcings of any length.", "anchors": ["src/openscm_twolayermodel/two_layer_model.py: TwoLayerModel._step", "src/openscm_twolayermodel/impulse_response_model.py: ImpulseResponseModel._step"]}
{"id": "C74", "title": "Deeper ocean, slower warming", "statement": "Under non-decreasing non-negative forcing, increasing the depth of either layer and nothing else never raises a reported temperature (a >= 0, resolved time step).", "quantifier": "all pairs of reachable two-layer objects differing in du and dl, all non-decreasing driver series", "why_tests_cant": "Compares all pairs of depths under all rising forcings.", "anchors": ["src/openscm_twolayermodel/two_layer_model.py: TwoLayerModel._step, heat_capacity_upper, heat_capacity_lower"]}
{"id": "C75", "title": "Sign symmetry", "statement": "Reversing the sign of every driver value and of a reverses the sign of every reported value; with a = 0, cooling is the mirror image of warming.", "quantifier": "all pairs of reachable two-layer objects differing in the sign of a, all driver series", "why_tests_cant": "All forcings and parameters.", "anchors": ["src/openscm_twolayermodel/two_layer_model.py: TwoLayerModel._step"]}
{"id": "C76", "title": "What a failing constructor says", "statement": "A constructor raises exactly when some argument is not a Quantity or has an incompatible unit (for ImpulseResponseModel also when all are fine and d1 >= d2: ValueError); the exception is TypeError or UnitError for the first offending argument in the order du, dl, lambda0, a, efficacy, eta, delta_t (q1, q2, d1, d2, efficacy, delta_t).", "quantifier": "every combination of constructor arguments, in every registry with consistent dimensions", "why_tests_cant": "All combinations of good and bad arguments.", "anchors": ["src/openscm_twolayermodel/base.py: Model._assert_is_pint_quantity_with_units", "src/openscm_twolayermodel/two_layer_model.py: TwoLayerModel.__init__", "src/openscm_twolayermodel/impulse_response_model.py: ImpulseResponseModel.__init__"]}
{"id": "C77", "title": "Step-by-step coupling", "statement": "A program that rewrites the driver array (in W/m^2) before every step() gets the outputs of a plain run whose driver at position i is what the array held there when the step to position i+1 was taken: a step reads the driver at the previous position, at that moment, and nothing else of the drivers.", "quantifier": "both classes, every object, every array length, every sequence of rewrites", "why_tests_cant": "All interleavings of rewrites and steps.", "anchors": ["src/openscm_twolayermodel/two_layer_model.py: TwoLayerModel._step", "src/openscm_twolayermodel/impulse_response_model.py: ImpulseResponseModel._step", "src/openscm_twolayermodel/base.py: TwoLayerVariant.erf (setter)"]}
{"id": "C78", "title": "setup.py and the imported package agree on the version", "statement": "In a source tree whose _version.py carries given git-archive keywords, versioneer.get_versions() as called by setup.py and get_versions() of the package imported from that tree return the same record (version, revision, dirty, error, date) or raise the same exception. A missing or unreadable _version.py is skipped: git and the directory names are then asked.", "quantifier": "all keyword values without a newline, all surroundings of the three keyword lines, all answers of git, all directory names", "why_tests_cant": "Two independent readers of one file, for every git state and every archive.", "anchors": ["versioneer.py: get_versions, git_get_keywords, git_versions_from_keywords, versions_from_file", "src/openscm_twolayermodel/_version.py: get_versions"]}
{"id": "C79", "title": "A source distribution keeps its version", "statement": "In a tree whose _version.py was written by setup.py sdist/build for a version record, setup.py computes exactly that record again, whatever git and the directory names say and whatever characters the record contains. Missing entries are read back as None and truth values as truth values.", "quantifier": "all version records (any Unicode text without lone surrogates), all git answers, all directories", "why_tests_cant": "All strings must survive JSON escaping, embedding and two regular expressions.", "anchors": ["versioneer.py: write_to_version_file, SHORT_VERSION_PY, versions_from_file, get_versions"]}
{"id": "C80", "title": "An installed distribution reports the version it was built with", "statement": "get_versions() of the _version.py written into a build or sdist returns the record it was written for.", "quantifier": "all version records", "why_tests_cant": "All strings must survive JSON escaping and evaluation as a Python literal.", "anchors": ["versioneer.py: write_to_version_file, SHORT_VERSION_PY", "src/openscm_twolayermodel/__init__.py: __version__"]}
{"id": "C81", "title": "Release chain", "statement": "From a git checkout of tag vX, N commits later, setup.py computes X or X+N.gHASH[.dirty]; the sdist made there keeps this version wherever it is unpacked; the package installed from it reports it as __version__.", "quantifier": "all tags of printable ASCII without quotes, blanks or backslashes, all distances, hashes, dates, dirty or not", "why_tests_cant": "All tags and all places of unpacking.", "anchors": ["versioneer.py: get_versions, write_to_version_file, cmd_sdist, cmd_build_py", "src/openscm_twolayermodel/__init__.py: __version__"]}
{"id": "C82", "title": "Long description", "statement": "The long description is a fixed title followed by exactly the stripped README lines between the first begin marker and the first end marker after it; without a begin marker it is the title; the 'Insufficient description' error is never raised.", "quantifier": "all README contents", "why_tests_cant": "All files.", "anchors": ["setup.py: README_LINES"]}
{"id": "C83", "title": "Listed dependencies", "statement": "For a README whose dependencies are bullets between the markers, the requirements check passes exactly when bullets and REQUIREMENTS name the same requirements.", "quantifier": "all lists of requirements, all text before and after the section", "why_tests_cant": "All lists.", "anchors": ["scripts/check_requirements_in_readme.py"]}
{"id": "C84", "title": "Similarity", "statement": "Rescaling time (time step and depths, or d1 and d2), heat fluxes (depths, lambda0, eta, a and forcing, or forcing and 1/q) and temperatures (forcing and 1/a, or forcing) of a model rescales its temperatures and heat uptake by exactly the corresponding factors.", "quantifier": "all parameters, all non-zero scale factors (positive for the impulse response model), all drivers of any length (for the impulse response model: q1 given in the same unit to both objects)", "why_tests_cant": "All parameters, factors and drivers.", "anchors": ["src/openscm_twolayermodel/two_layer_model.py: TwoLayerModel._run, _calculate_next_temp_upper, _calculate_next_temp_lower, _calculate_next_rndt", "src/openscm_twolayermodel/impulse_response_model.py: ImpulseResponseModel._run"]}
{"id": "C85", "title": "Steadily rising forcing", "statement": "Under forcing that rises by the same amount each step, two-layer warming follows the equilibrium warming of the current forcing with a lag that settles at (C + efficacy C_D)/lambda0, the lower layer C_D/eta further behind, and heat uptake settles at the rate that keeps both layers warming; the impulse response boxes follow a closed form.", "quantifier": "all rates of rise, all run lengths, all physical parameters without state dependence and with a stable time step", "why_tests_cant": "All run lengths: the bounds are uniform in the number of steps.", "anchors": ["src/openscm_twolayermodel/two_layer_model.py: TwoLayerModel._run", "src/openscm_twolayermodel/impulse_response_model.py: ImpulseResponseModel._run"]}
{"id": "C86", "title": "Cumulated warming", "statement": "If the forcings add up to a total, the temperatures of each layer add up to the total divided by lambda0, and those of each box to q times the total, whenever the forcing acts.", "quantifier": "all forcings with convergent sums, all physical parameters with a stable time step, all long enough runs", "why_tests_cant": "A limit over runs of unbounded length.", "anchors": ["src/openscm_twolayermodel/two_layer_model.py: TwoLayerModel._run", "src/openscm_twolayermodel/impulse_response_model.py: ImpulseResponseModel._run"]}
{"id": "C87", "title": "Heat content", "statement": "If the forcing settles at c, the cumulated reported heat uptake settles at the heat needed to warm both layers by c/lambda0, whatever eta and efficacy.", "quantifier": "all forcings with a limit, all physical parameters with a stable time step, all long enough runs", "why_tests_cant": "A limit over runs of unbounded length.", "anchors": ["src/openscm_twolayermodel/two_layer_model.py: TwoLayerModel._calculate_next_rndt"]}
{"id": "C88", "title": "Accuracy of floating-point runs against the differential equations", "statement": "The temperatures reported by a run in rounded arithmetic differ from the solution of the model's differential equations by at most a time-step error plus a rounding error, neither growing with the length of the run; for the default two-layer model in double precision under forcing within M, by at most 0.151 M + delta/1.24 + 1e-9 K.", "quantifier": "all rounding modes with the stated unit roundoff, all resolved parameters, all forcings, all run lengths", "why_tests_cant": "All forcings and run lengths; compares with a continuous solution.", "anchors": ["src/openscm_twolayermodel/two_layer_model.py: TwoLayerModel._run", "src/openscm_twolayermodel/impulse_response_model.py: ImpulseResponseModel._run"]}
{"id": "C89", "title": "Below the tipping point", "statement": "With state-dependent feedback, forcing that stays within the range a warming theta can balance keeps both temperatures within theta; with a > 0, constant forcing up to lambda0^2/(4a) makes both temperatures settle at the smaller equilibrium and heat uptake at 0.", "quantifier": "all forcings in the range, all resolved parameters, all run lengths", "why_tests_cant": "All forcings and a limit over runs of unbounded length.", "anchors": ["src/openscm_twolayermodel/two_layer_model.py: TwoLayerModel._calculate_next_temp_upper, _calculate_next_temp_lower, _calculate_next_rndt"]}
{"id": "C90", "title": "Efficacy", "statement": "Raising the efficacy of deep-ocean heat uptake, everything else equal, never raises a temperature under non-negative forcing that never decreases.", "quantifier": "all pairs of models differing in efficacy, all non-decreasing forcings, all run lengths", "why_tests_cant": "All parameter pairs and forcings.", "anchors": ["src/openscm_twolayermodel/two_layer_model.py: TwoLayerModel._calculate_next_temp_upper"]}
{"id": "C91", "title": "Accuracy with state-dependent feedback", "statement": "Below the tipping point, for either sign of a, the reported temperatures stay within a bound of first order in the time step, plus a multiple of the sampling error of the forcing, of the solution of the non-linear two-layer differential equations, however long the run.", "quantifier": "all solutions of the differential equations, all forcings in the range, all resolved parameters, all run lengths", "why_tests_cant": "Compares with a continuous solution for all forcings and run lengths.", "anchors": ["src/openscm_twolayermodel/two_layer_model.py: TwoLayerModel._run"]}
{"id": "C92", "title": "Re-running the versioneer installer", "statement": "python versioneer.py setup only appends to __init__.py, MANIFEST.in and .gitattributes; if the latter two are missing, empty or end in a newline, they then list versioneer.py, the version file and export-subst, and a second run changes nothing; whatever they contain, the third run changes nothing.", "quantifier": "all contents of the files", "why_tests_cant": "All file contents.", "anchors": ["versioneer.py: do_setup, do_vcs_install"]}
{"id": "C93", "title": "Check of setup.py", "statement": "scan_setup_py reports no error exactly when setup.py contains 'import versioneer', 'versioneer.get_cmdclass()' and 'versioneer.get_version()' and neither 'versioneer.VCS' nor 'versioneer.versionfile_source'.", "quantifier": "all texts of setup.py", "why_tests_cant": "All texts.", "anchors": ["versioneer.py: scan_setup_py"]}
{"id": "C94", "title": "Equations between physical quantities", "statement": "Whatever the units in which parameters and forcing are given, and whatever the sizes of the named units in the registry, the reported temperatures (read in delta_degC) and heat uptake (read in W/m^2) solve the two-layer difference equations, or the box and energy balance equations, between physical quantities: no term is added to one of another dimension and no conversion factor is missing, except that in the heat uptake of the impulse response model the feedback is multiplied by the size of the unit in which q1 was given relative to K/(W/m^2) (C44).", "quantifier": "all reachable objects whose public parameters are finite, all registries satisfying the stated assumptions, all array drivers", "why_tests_cant": "tests use a few units and one registry; a missing conversion factor equal to 1 there stays invisible", "anchors": ["src/openscm_twolayermodel/two_layer_model.py: class attributes *_unit, setters, _calculate_next_*", "src/openscm_twolayermodel/impulse_response_model.py: class attributes *_unit, setters, _calculate_next_*", "src/openscm_twolayermodel/constants.py"]}
{"id": "C95", "title": "What is read back", "statement": "After any history of calls on a constructed object, exceptions caught, each public parameter is exactly the last accepted assignment to it, or the constructor's argument if there was none; run_scenarios, even if it raises, sets delta_t to the step of the time axis if the axis has one and there is something to run, and changes no other parameter. Without run_scenarios, the drivers are the last accepted ones.", "quantifier": "all constructor arguments, all finite sequences of API calls", "why_tests_cant": "interleavings of accepted and refused calls are unbounded", "anchors": ["src/openscm_twolayermodel/base.py: delta_t, erf, set_drivers, run_scenarios", "src/openscm_twolayermodel/two_layer_model.py: property setters, reset, step, run", "src/openscm_twolayermodel/impulse_response_model.py: property setters, reset, step, run"]}
{"id": "C96", "title": "A unit pulse determines every response", "statement": "For the two-layer model with state-independent feedback (a = 0), and for the impulse response model, every output (temperatures and heat uptake) is the driver convolved with the same object's response to 1 W/m^2 during the first step only. The pulse responses are explicit: in the impulse response model box i answers q_i (1-exp(-dt/d_i)) exp(-k dt/d_i), k steps after the pulse; in the two-layer model the upper layer answers the sum over i of q_i (dt/d_i)(1-dt/d_i)^k with q_i, d_i the values get_impulse_response_parameters returns.", "quantifier": "every reachable object, every physical parameter set in any coherent units, every driver series", "why_tests_cant": "Quantifies over all driver series; tests compare a handful of numbers.", "anchors": ["src/openscm_twolayermodel/two_layer_model.py:TwoLayerModel", "src/openscm_twolayermodel/impulse_response_model.py:ImpulseResponseModel"]}
{"id": "C97", "title": "The two models agree through run_scenarios", "statement": "Take a two-layer object with positive parameters and a = 0, build ImpulseResponseModel(**two_layer.get_impulse_response_parameters(), delta_t=...), and call run_scenarios of both on the same frame with a step no longer than the fast timescale. Then at every time at which a driver has a value, 'Surface Temperature|Upper' of the one and 'Surface Temperature' of the other differ by at most dt*max|F|/C, and (parameters in the model's own units) the two 'Heat Uptake' series by at most an explicit constant times dt*max|F|. With parameters in the model's own units the conversion, the constructor and the second run_scenarios succeed whenever the first does, unless two selected series differ only in columns the second model overwrites or a selected series carries variable and unit of one of its outputs.", "quantifier": "every reachable two-layer object with such parameters, every frame, yearly or monthly axis, drivers with gaps only at the ends", "why_tests_cant": "The integration test compares one forcing series for three parameter sets with a tolerance of 0.1.", "anchors": ["tests/integration/test_twolayer_impulse_response_equivalence.py", "src/openscm_twolayermodel/base.py:run_scenarios", "src/openscm_twolayermodel/two_layer_model.py:TwoLayerModel.get_impulse_response_parameters"]}
{"id": "C98", "title": "Shape of the returned frame", "statement": "The frame run_scenarios returns is a well-formed ScmRun: all series have the same metadata columns, none twice, one value (possibly NaN) per time, and no two series have the same metadata. Its times are, in the order of the input, exactly those at which some selected series has a value. The two models return the same times and the same forcing values for the same input, whatever their parameters and histories.", "quantifier": "every well-formed frame, driver_var, and reachable object of either class, every arithmetic", "why_tests_cant": "Quantifies over all frames and histories.", "anchors": ["src/openscm_twolayermodel/base.py:run_scenarios"]}
{"id": "C99", "title": "Shared Quantities converted in place", "statement": "Objects keep the caller's pint Quantities, not copies, and objects constructed with default arguments share the same default Quantities. In every program that creates Quantities, constructs any number of objects of both classes from them (sharing them freely, relying on defaults), assigns parameters, calls methods and run_scenarios (exceptions caught) and converts Quantities in place with pint's ito at any moment: every object is always in a state that a program without sharing and in-place conversion can reach; an in-place conversion changes the value of no parameter of any object, in whatever unit it is read; all methods of two-layer objects, called in any order, then have the same outcomes and outputs as if it had not happened; impulse response objects keep their temperatures as long as the run succeeds before and after (runs with efficacy 1 keep succeeding; with another efficacy a run of two or more steps succeeds exactly if the units q2 and efficacy are then in multiply to delta_degC/(W/m^2)). Not kept is the heat uptake of impulse response objects: converting q1 of one default-constructed object to another unit in place changes the heat uptake of another that the program never touched. TwoLayerModel() and ImpulseResponseModel() have the documented defaults, and each parameter of each class has a default Quantity of its own: converting one in place changes no other.", "quantifier": "all programs (finite sequences of the events described, any number of objects and Quantities), all registries satisfying the stated assumptions", "why_tests_cant": "interleavings of sharing, assignment, runs and conversions over any number of objects", "anchors": ["src/openscm_twolayermodel/two_layer_model.py: TwoLayerModel.__init__, setters", "src/openscm_twolayermodel/impulse_response_model.py: ImpulseResponseModel.__init__, setters, _calculate_next_rndt", "src/openscm_twolayermodel/base.py: delta_t, run_scenarios"]}
{"id": "C100", "title": "Drivers converted in place", "statement": "If the caller converts the driver Quantity in place (ito) after set_drivers: drivers given in W/m^2 are then taken for W/m^2 in their new numbers, i.e. the run answers to the drivers divided by the size of the new unit in W/m^2 although erf reads back correctly in the new unit; drivers given in any other unit are not affected, the run uses the values set_drivers saw. Converting the drivers to an incompatible unit is refused and changes nothing.", "quantifier": "all objects of both classes, all driver arrays, all units compatible with W/m^2, every arithmetic (the factor: exact arithmetic)", "why_tests_cant": "depends on the unit the drivers were given in; all arrays and units", "anchors": ["src/openscm_twolayermodel/base.py: erf setter, set_drivers", "src/openscm_twolayermodel/two_layer_model.py: _reset, _run", "src/openscm_twolayermodel/impulse_response_model.py: _reset, _run"]}
{"id": "C101", "title": "The order of the boxes", "statement": "d1 and d2 may be assigned in the wrong order (or equal) after construction. Objects whose boxes are exchanged (q1,d1 with q2,d2) have the same equivalent two-layer parameters and report the same surface temperature, with the two box series exchanged. Their heat uptake is the same if efficacy is 1; otherwise the object in the wrong order silently reports (e-1)/e (d2-d1)/(q1 d2+q2 d1) (T1-T2) too much. With d1 = d2 a run succeeds if efficacy is 1 and raises ZeroDivisionError otherwise.", "quantifier": "all objects of the class with positive parameters, reached by any history, all parameter units (uptake: q1 in the model's unit), all driver series; exact arithmetic", "why_tests_cant": "a test compares one pair of objects; the formula for the error needs all parameters and forcings", "anchors": ["src/openscm_twolayermodel/impulse_response_model.py:ImpulseResponseModel.d1", "src/openscm_twolayermodel/impulse_response_model.py:_calculate_next_rndt", "src/openscm_twolayermodel/impulse_response_model.py:get_two_layer_parameters"]}
{"id": "C102", "title": "Accuracy of the converted two-layer parameters", "statement": "In floating point, get_two_layer_parameters of an ImpulseResponseModel whose parameters satisfy d1 < d2 and q1, q2, efficacy > 0 succeeds and returns lambda0 and du within a few units of rounding (5u and 16u relative) of the exact equivalent two-layer parameters, and dl and eta within 24u and 35u times 1 + 2C/(eD), where C and D are the heat capacities of the two layers; the efficacy is passed on unchanged. The default ImpulseResponseModel() in double precision gives all four within 1e-14.", "quantifier": "every rounding with relative error at most u <= 1/100, every parameter set with d1 < d2 (or d1 != d2) whose intermediate results neither overflow nor underflow", "why_tests_cant": "the loss of digits depends on the ratio of the heat capacities, a continuum of parameters; a test compares a few values with a tolerance", "anchors": ["src/openscm_twolayermodel/impulse_response_model.py:ImpulseResponseModel.get_two_layer_parameters"]}
{"id": "C103", "title": "Accuracy of the converted impulse response parameters", "statement": "In floating point, get_impulse_response_parameters of a TwoLayerModel with positive parameters and a = 0 succeeds. With kappa = (d2+d1)/(d2-d1), both timescales are within 180 u kappa d2 of the exact ones and both coefficients within 2000 u kappa^2 d2/C, provided 20000 u kappa^2 <= 1 and no intermediate result overflows or underflows: the error of the short timescale is of the size of the rounding error of the long one. For TwoLayerModel() in double precision the timescales are within a millisecond and the coefficients within 1e-10 K/(W/m^2).", "quantifier": "every rounding with relative error at most u and every positive parameter set in the stated range", "why_tests_cant": "cancellation in b - sqrt(delta) and in the discriminant grows without bound as the timescales separate or coincide; a test compares a few parameter sets with a tolerance", "anchors": ["src/openscm_twolayermodel/two_layer_model.py:TwoLayerModel.get_impulse_response_parameters", "src/openscm_twolayermodel/base.py:_calculate_geoffroy_helper_parameters"]}
{"id": "C104", "title": "Infinitely deep lower layer", "statement": "With every other parameter (any sign, any a) and the forcing fixed, as dl grows a run of the two-layer model tends to the one-layer model with feedback lambda0 - a T + efficacy*eta: lower temperature to 0, upper temperature to the one-layer solution (which is also what the package computes with eta=0 and lambda0 raised by efficacy*eta), heat uptake to upper-layer gain plus eta T. For a=0 and a resolved step, after i steps |T_D| <= i dt eta/C_D * M/lambda0. Under constant forcing c the limit plateaus at c/(lambda0+efficacy*eta) and takes up heat eta c/(lambda0+efficacy*eta) for ever.", "quantifier": "all parameter sets, all driver series of any length, all depths beyond a threshold", "why_tests_cant": "A limit over unboundedly deep layers; the notebook plots four depths.", "anchors": ["docs/source/usage/one-layer-model.ipynb: Infinite reservoir second layer", "src/openscm_twolayermodel/two_layer_model.py: TwoLayerModel._calculate_next_temp_upper, _calculate_next_temp_lower"]}
{"id": "C105", "title": "Timescales as functions of the parameters", "statement": "The timescales returned by get_impulse_response_parameters: a larger dl lengthens both; a larger du lengthens both, the slow one by the smaller factor as long as the upper layer is the faster one; a larger lambda0 or eta shortens both; a larger efficacy shortens the fast one and lengthens the slow one. The fast one lies below and the slow one above C/(lambda0+efficacy*eta), C_D/eta and (C+efficacy*C_D)/lambda0; d2 > C_D (lambda0+efficacy*eta)/(lambda0 eta), and for a deep lower layer d1 -> C/(lambda0+efficacy*eta), q1 -> 1/(lambda0+efficacy*eta) with explicit errors.", "quantifier": "all pairs of two-layer objects with positive parameters, a=0, that differ in one parameter", "why_tests_cant": "Strict monotonicity over a continuum of parameters of expressions with square roots; the notebook prints four values.", "anchors": ["docs/source/usage/one-layer-model.ipynb", "src/openscm_twolayermodel/two_layer_model.py: TwoLayerModel.get_impulse_response_parameters", "src/openscm_twolayermodel/utils.py: calculate_geoffroy_helper_parameters"]}
{"id": "C106", "title": "Python numbers and numpy scalars", "statement": "Parameter magnitudes may be Python numbers or numpy scalars (a Quantity taken out of an array Quantity). Constructors, setters, drivers, step, run, both conversions, convert_lambda_to_ecs and run_scenarios give the same values, units, exceptions and resulting object for every mix of the two kinds, unless with Python numbers only the call raises ZeroDivisionError, takes the square root of a negative number, or finds duplicate metadata. With numpy scalars (eta for the two-layer conversion; q1 or q2, and d1, d2, for any call on an impulse response object) no call raises ZeroDivisionError or yields a complex number.", "quantifier": "all objects, all calls and histories, every assignment of kinds to scalars, every arithmetic", "why_tests_cant": "Every parameter, time step and driver can be of either kind at every call of an unbounded history; tests use a handful of literals.", "anchors": ["src/openscm_twolayermodel/base.py: calculate_geoffroy_helper_parameters", "src/openscm_twolayermodel/impulse_response_model.py: _calculate_next_temp, get_two_layer_parameters", "src/openscm_twolayermodel/utils.py: convert_lambda_to_ecs", "docs/source/usage/one-layer-model.ipynb"]}
{"id": "C107", "title": "Ensembles run column by column", "statement": "Assigning drivers of shape (time, members) to erf (set_drivers refuses them) runs an ensemble: for two-layer objects, whose parameters and time step may be scalars or one value per member, and for impulse response objects with scalar parameters, construction, every call, every history of calls and every output series is for each member exactly what that member's own one-dimensional program gives, including exceptions, provided no member's driver value is missing; a missing value of one member makes reset raise ModelStateError for all.", "quantifier": "all finite sets of members, all arguments, all histories of calls (exceptions caught), every arithmetic", "why_tests_cant": "Independence of members has to hold for any number of members, any values and any interleaving of parameter changes, steps and resets.", "anchors": ["src/openscm_twolayermodel/base.py: erf, set_drivers", "src/openscm_twolayermodel/two_layer_model.py: _reset, _step, _run", "src/openscm_twolayermodel/impulse_response_model.py: _reset, _step, _run, _calculate_next_rndt"]}
{"id": "C108", "title": "Rounding errors do not accumulate with state-dependent feedback either", "statement": "A TwoLayerModel whose feedback changes with the temperature (a != 0) is run with every arithmetic operation rounded with relative error at most u. If the forcing stays within ±(lambda0 - |a| K) K with lambda0 > 2 |a| K and the step resolves both layers, the three reported series differ from the exact solution of the non-linear discrete equations by multiples of u K that do not depend on the number of steps (and temperatures stay within ±K). For TwoLayerModel(a=a) with |a| <= 0.05 in double precision and any forcing within ±7 W/m^2, temperatures are within 1e-9 K and heat uptake within 1e-7 W/m^2 of the exact solution, however long the run.", "quantifier": "every reachable two-layer object with positive parameters and any a, every rounding with a relative error bound, every forcing in the stated range, every run length", "why_tests_cant": "the rounded and the exact run feel different feedbacks and could diverge after any number of steps; a test sees finitely many steps and forcings", "anchors": ["src/openscm_twolayermodel/two_layer_model.py: TwoLayerModel._run, _calculate_next_temp_upper, _calculate_next_temp_lower, _calculate_next_rndt"]}
{"id": "C109", "title": "run_scenarios is accurate in floating point, end to end", "statement": "With every arithmetic operation rounded with relative error at most u, the series returned by run_scenarios hold, at the times of the non-missing driver values and nowhere else, numbers that differ from the exact solution of the discrete equations (with the step that belongs to the axis) by multiples of u that depend neither on the length of the series nor on the other series. In double precision, TwoLayerModel().run_scenarios and ImpulseResponseModel().run_scenarios succeed for any number of series of any length with W/m^2 drivers within ±100 that differ in their metadata, on any yearly or monthly axis and whatever the object did before, and return temperatures within 1e-8 K (impulse response 1e-9 K) and heat uptake within 1e-5 W/m^2 (1e-8) of the exact solution.", "quantifier": "all scenario frames (any number of series, lengths, missing values), all axes with a step, all histories of the object, every rounding with a relative error bound", "why_tests_cant": "The bound must hold for every number and length of series and every history; errors that grow slowly or depend on the position of a series are invisible to a test.", "anchors": ["src/openscm_twolayermodel/base.py: run_scenarios, _select_timestep", "src/openscm_twolayermodel/two_layer_model.py: _run, _step", "src/openscm_twolayermodel/impulse_response_model.py: _run, _step"]}
{"id": "C110", "title": "Floating-point runs are exactly symmetric and exactly time-invariant", "statement": "In floating point (any rounding that treats both signs alike, IEEE-754 round-to-nearest included): negating the forcing negates every value reported by an impulse response model, bit for bit and whatever its parameters (and the second run succeeds if the first does); negating the forcing and the state dependence a does the same for the two-layer model. Steps without forcing put before a series only delay the reported series: no bit of them changes.", "quantifier": "all parameters, all forcing series of any length, all numbers of leading zero steps, every rounding with fl(-x) = -fl(x) (symmetry) or fl(0) = 0 (delay)", "why_tests_cant": "Exact equality of floating-point numbers must hold for every operand; a changed order of operations breaks it for rare inputs only.", "anchors": ["src/openscm_twolayermodel/two_layer_model.py:TwoLayerModel._step", "src/openscm_twolayermodel/impulse_response_model.py:ImpulseResponseModel._step"]}
{"id": "C111", "title": "Floating-point impulse responses respect order exactly", "statement": "In floating point (any monotone rounding that keeps 0, 1 and its own results, IEEE-754 round-to-nearest included) an impulse response model with non-negative sensitivities: forcing that is nowhere smaller never gives a smaller reported temperature, nor (for non-negative forcing) do larger sensitivities; under non-negative forcing no reported temperature is negative; while that forcing does not decrease, no reported temperature decreases; whenever there is no forcing in a step, no reported temperature increases. None of this is up to rounding errors.", "quantifier": "all parameters with positive timescales and non-negative sensitivities and time step, all forcing series of any length, every monotone rounding", "why_tests_cant": "A rounding error of one unit in the last place in the wrong direction breaks it for rare inputs only.", "anchors": ["src/openscm_twolayermodel/impulse_response_model.py: _calculate_next_temp, _get_run_output_tss"]}
{"id": "C112", "title": "Converting back and forth in floating point", "statement": "In floating-point arithmetic (every operation rounded with relative error at most u; in particular IEEE-754 double precision), take a model whose parameters are given in the units of the model, convert it to the other model's parameters, construct that model from them, and convert back. Both conversions and the construction succeed, the parameters come back in the units they were given in, the efficacy unchanged. Impulse response to two-layer to impulse response: both timescales come back within 6300 u s k d2 and both coefficients within 70000 u s k^2 d2/C, with k = (d2+d1)/(d2-d1) and s = 1 + 2C/(e D) for the heat capacities C and D of the equivalent two-layer model. Two-layer to impulse response to two-layer (no state dependence): du and lambda0 come back within relative errors of 42000 u k^2 r and 14000 u k^2 r, dl and eta within 62000 u k^2 r s and 106000 u k^2 r s, where r is d2/C divided by the smaller of q1 and q2. In double precision TwoLayerModel() comes back to within a relative error of 1e-8 and ImpulseResponseModel() to within 1e-9 (years, K/(W/m^2)).", "quantifier": "all registries whose dimensional analysis is consistent, all roundings of accuracy u, all positive parameters for which 700000 u s k^2 <= 1 (resp. 400000 u k^2 r <= 1) and whose intermediate results neither overflow nor underflow, all valid time steps given to the intermediate object", "why_tests_cant": "tests compare a few converted parameter sets with a tolerance; loss of digits depends on how close the timescales and how unequal the modes are, and has to be bounded for all of them", "anchors": ["src/openscm_twolayermodel/impulse_response_model.py:ImpulseResponseModel.get_two_layer_parameters", "src/openscm_twolayermodel/two_layer_model.py:TwoLayerModel.get_impulse_response_parameters", "src/openscm_twolayermodel/utils.py:_calculate_geoffroy_helper_parameters"]}
{"id": "C113", "title": "Infinities and NaN cannot hide", "statement": "In IEEE-754 binary64 arithmetic with infinities, NaN and signed zeros, in a run that raises nothing: a reported temperature that is a finite number has only finite numbers behind it. Two-layer: a finite upper temperature implies that both temperatures and the forcing at all earlier times are finite, and (after the first) that lambda0, a, efficacy, eta and delta_t are; a finite lower temperature implies finite earlier temperatures and finite forcing up to two steps before; a finite heat uptake implies that both temperatures at that time and both heat capacities are finite. Impulse response: a finite box temperature implies that the box's earlier temperatures, the earlier forcing and its coefficient are finite; a finite surface temperature implies two finite boxes; a finite heat uptake implies finite boxes and forcing one step earlier. Hence an infinite driver value (accepted by set_drivers and reset, which refuse only NaN) leaves no finite temperature, total or heat uptake after it (lower layer: from two steps later on).", "quantifier": "all objects reachable by any history of calls, all drivers (infinite values included), all run lengths, all parameters (infinite, zero and NaN included), Python and numpy scalars, all registries with consistent dimensions (impulse response: all registries)", "why_tests_cant": "the test suite has no infinite values; that an infinity never turns back into a plausible number (through inf * 0, x / inf or inf - inf) must hold for all values and all times", "anchors": ["src/openscm_twolayermodel/two_layer_model.py:TwoLayerModel._step", "src/openscm_twolayermodel/impulse_response_model.py:ImpulseResponseModel._step", "src/openscm_twolayermodel/base.py:Model.reset"]}
{"id": "C114", "title": "No overflow in range: the accuracy bounds hold in binary64 itself", "statement": "In IEEE-754 binary64 arithmetic with overflow to infinity, NaN and signed zeros: if the parameters and the size of the forcing are such that the quantities of a step are in the normal range (at least 2^-1022, at most 2^1018 two-layer, 2^1017 impulse response), then a run of any length succeeds, reports neither infinity nor NaN, and its series are within the bounds of C67 (u = 2^-53) of the exact solution; the numbers are the same as those of the arithmetic without a largest number, so that theorems about that arithmetic apply. With state-dependent feedback (any a) the same holds under the hypotheses on step and forcing of C108, with its bounds. TwoLayerModel() and ImpulseResponseModel(): for every forcing within +-100 W/m^2, temperatures within 1e-9 K and heat uptake within 1e-7 resp. 1e-8 W/m^2, whatever the length of the run. TwoLayerModel(a=a), |a| <= 0.05: for every forcing within +-7 W/m^2, 1e-9 K and 1e-7 W/m^2.", "quantifier": "all runs of any length, all forcings of bounded size, all positive parameters in range (two-layer: any a) with a resolved step (two-layer) resp. efficacy 1 and model units (impulse response), Python and numpy scalars, all registries with consistent dimensions", "why_tests_cant": "absence of overflow and of accumulating errors concerns every forcing and runs of every length", "anchors": ["src/openscm_twolayermodel/two_layer_model.py:TwoLayerModel._step", "src/openscm_twolayermodel/impulse_response_model.py:ImpulseResponseModel._step"]}
{"id": "C115", "title": "A finite output can be trusted, whatever overflowed", "statement": "In binary64 arithmetic with infinities and NaN, let the parameters of an object be numbers (C, D and delta_t, or d1 and d2, not zero) and let a run raise nothing. Every reported temperature and (two-layer: always; impulse response: with efficacy 1, parameters in the model's units and q1+q2 a normal double up to 2^1023) every reported heat uptake which is a number, is exactly the number the same run would report in arithmetic that rounds like binary64 but has no largest number, even if other values of the run, or the drivers, are infinite or NaN. So np.isfinite on an output certifies that no overflow influenced it, and the rounding-error bounds of C108 (two-layer) and C67 (impulse response) hold for every finite output without any upper limit on sizes. For TwoLayerModel() and forcings within 100 W/m2 (or infinite) every finite temperature is within 1e-9 K and every finite heat uptake within 1e-7 W/m2 of the exact solution.", "quantifier": "all parameters that are numbers, all drivers (finite or not), all run lengths, all time points with a finite output", "why_tests_cant": "Tests compare some finite outputs on inputs where nothing overflows; that an overflow anywhere (also the harmless one of -delta_t/d inside exp) can never leave behind a wrong finite number needs an argument about every operation of every step.", "anchors": ["src/openscm_twolayermodel/two_layer_model.py:TwoLayerModel._step", "src/openscm_twolayermodel/impulse_response_model.py:ImpulseResponseModel._step", "src/openscm_twolayermodel/base.py:Model.run"]}
{"id": "C116", "title": "A call interrupted at any point", "statement": "Let calls be interrupted (Ctrl-C, a timeout, a memory error) after any number of their attribute or array-cell assignments, and the program go on with the object. (1) After any history of set_drivers, reset, step and run, each completed, raised or interrupted anywhere, the parameters are unchanged and set_drivers, reset, run does and raises exactly what it would have on the object before; after reset, step and run only, also the drivers are unchanged and reset, run does exactly what it would have. (2) After any history of these, of delta_t assignments and of run_scenarios, every parameter but delta_t is unchanged and run_scenarios returns or raises exactly what it would have. (3) An interrupted parameter assignment leaves parameters reading as before or as after it, and two-layer simulations all as before or all as after it (temperatures of the impulse response model likewise). (4) Assigning the same attribute again, successfully, leaves exactly the object without the interrupted assignment; assigning all parameters makes any object simulate exactly like a new one. (5) What is not promised: an interrupted du assignment can read new and simulate old, and an interrupted q1 assignment can report old temperatures with a heat uptake computed from them with the new feedback, which is neither old nor new.", "quantifier": "all objects (also ones left behind by earlier interrupts), all histories of calls with an interrupt at any assignment of any of them, all later calls and drivers", "why_tests_cant": "A test would have to raise an exception between every two assignments of every call in every history; unit tests only see completed calls and the exceptions the code raises itself.", "anchors": ["src/openscm_twolayermodel/base.py:TwoLayerVariant.run_scenarios", "src/openscm_twolayermodel/base.py:TwoLayerVariant.set_drivers", "src/openscm_twolayermodel/two_layer_model.py:TwoLayerModel._step", "src/openscm_twolayermodel/two_layer_model.py:TwoLayerModel._reset", "src/openscm_twolayermodel/two_layer_model.py:TwoLayerModel.du", "src/openscm_twolayermodel/impulse_response_model.py:ImpulseResponseModel._step", "src/openscm_twolayermodel/impulse_response_model.py:ImpulseResponseModel.q1"]}
{"id": "C117", "title": "Threads", "statement": "Let any number of threads make calls on model objects, Python switching between them at any reading or assignment. (1) Threads that each have their own object (of either class, in any state) do not notice each other: whatever the calls and the schedule, a thread that has come to its end has got from every call what it returns or raises without other threads and has left its object as these calls alone leave it, and every thread comes to its end after finitely many of its turns. (2) Threads that share one object and only call set_drivers, reset, step, run leave the parameters unchanged at every moment, and set_drivers, reset, run afterwards does and raises exactly what it would have on the object before; with run_scenarios and delta_t assignments too, every parameter but delta_t is unchanged and run_scenarios afterwards returns or raises exactly what it would have. (3) Whatever threads did to a shared object, parameter assignments included, assigning all parameters makes it simulate exactly like a new one. (4) What is not promised: threads on one object get in each other's way while they run; two step() calls can both return and advance the object by one step only.", "quantifier": "all numbers of threads, objects and object states, scripts of calls, drivers, scenarios and schedules, at every moment of the schedule", "why_tests_cant": "The interleavings of two threads are too many to try, and a test cannot choose the schedule; unit tests run in one thread.", "anchors": ["src/openscm_twolayermodel/base.py:TwoLayerVariant.run_scenarios", "src/openscm_twolayermodel/base.py:TwoLayerVariant.set_drivers", "src/openscm_twolayermodel/two_layer_model.py:TwoLayerModel._step", "src/openscm_twolayermodel/two_layer_model.py:TwoLayerModel._reset", "src/openscm_twolayermodel/impulse_response_model.py:ImpulseResponseModel._step", "src/openscm_twolayermodel/impulse_response_model.py:ImpulseResponseModel._reset"]}
{"id": "C118", "title": "Copies of a model object", "statement": "A program makes objects of a class, copies them with copy.copy and copy.deepcopy and calls them in any order, catching exceptions. (1) Without copy.copy every object is at every moment what it would be were objects values that share nothing. (2) With copy.copy too, the parameters and the drivers of every object are what they would be were objects values. (3) Once reset has gone through on an object (or run_scenarios has come as far as its first reset), the object is what it would be were objects values, in every attribute, whatever is done to this and the other objects, until it is itself copied with copy.copy; so set_drivers, reset, run leave in it what they leave in it alone, also with calls on other objects in between. (4) Right after copy.copy a call on the copy or the original that is not such a reset or run_scenarios leaves its outputs in the other object too: a step of the copy overwrites outputs of the original.", "quantifier": "all programs of constructor calls, copies and public calls, of any length and in any order, all arguments, all objects of either class", "why_tests_cant": "Tests copy one object at one moment; sharing shows only in particular orders of copies, resets and steps on both objects.", "anchors": ["src/openscm_twolayermodel/two_layer_model.py:TwoLayerModel._reset", "src/openscm_twolayermodel/two_layer_model.py:TwoLayerModel._step", "src/openscm_twolayermodel/impulse_response_model.py:ImpulseResponseModel._reset", "src/openscm_twolayermodel/impulse_response_model.py:ImpulseResponseModel._step", "src/openscm_twolayermodel/base.py:TwoLayerVariant.run_scenarios"]}
{"id": "C119", "title": "Sdist and build on the disk", "statement": "setup.py sdist makes a tree of hard links or copies of the listed files and then puts the version into the tree's version file; setup.py build_py does the same with copies of the modules. (1) Wherever the command is killed or fails, every file outside that tree has the text it had, also those that were hard linked into it. (2) If the version file is among the files, the command succeeds: the version file of the tree holds the version record, every other file the text of its source, nothing else in the tree has changed; otherwise, and if there was none before, it fails. (3) After a command that was killed anywhere, the same command makes the tree it would have made. (4) The source tree computes the same version afterwards, the release tree and whatever it is unpacked to computes it too whatever git says there, and the version file built from it is the one from which the installed package reports it (if its texts are plain).", "quantifier": "all disks with hard links, trees, lists of files linked or copied, version records, points at which the command is killed, directories it is unpacked to, git answers", "why_tests_cant": "Tests build once, on one file system, and are not killed half way; whether a hard linked source survives depends on every system call in between.", "anchors": ["versioneer.py:get_cmdclass", "versioneer.py:write_to_version_file", "versioneer.py:get_versions"]}
{"id": "C120", "title": "Reading and completing setup.cfg", "statement": "(1) The setup.cfg of this repository is read by versioneer as: git, pep440, the two version files sdist and build write to, tag prefix v, directory prefix openscm_twolayermodel-, not verbose. (2) Sections before and after [versioneer] do not matter to what is read, as long as the file can be read and nothing is set under [DEFAULT]. (3) 'versioneer.py setup' writes to setup.cfg only if there is none, or if it can be read and has no section [versioneer]; then it appends a sample section, every option of every other section keeps its value, also where the last line had not ended, and a second setup appends nothing. (4) A section with plain values (one line, no white space at the ends, no %) written after anything that can be read, has no such section and nothing under [DEFAULT] is read as it was written, '' as the empty tag prefix.", "quantifier": "all texts of setup.cfg, all other sections, all plain values", "why_tests_cant": "Tests read the one setup.cfg there is; line continuations, comments, duplicate and default sections, files without a last newline are never tried.", "anchors": ["versioneer.py:get_config_from_root", "versioneer.py:do_setup", "versioneer.py:SAMPLE_CONFIG", "setup.cfg"]}
{"id": "C121", "title": "Calls under a lock", "statement": "Threads that share one object and make their calls inside 'with lock:' blocks, one lock for the object. (1) Whenever no thread is in a block, the object and what every call of every thread has returned or raised are what the blocks give one after the other without threads, in the order in which the lock was given back; later this order is only continued. (2) If the blocks assign no parameter but delta_t, every run_scenarios returns or raises what it would on the object as it was at first, for every schedule. (3) If the blocks only call set_drivers, reset, step, run (and assign erf), a thread that has made set_drivers, reset, run in a block and has not given the lock back finds the object exactly as these calls leave the object as it was at first; if it has also assigned all parameters in this block, it finds what a new object with these parameters gives, whatever the other threads do. (4) There is no deadlock: from every moment on the threads can all come to their end, and a thread that waits changes nothing.", "quantifier": "all numbers of threads, all blocks of calls on an object of either class, all schedules (switches between any two assignments)", "why_tests_cant": "Schedules are infinitely many and a test sees the few that happen.", "anchors": ["src/openscm_twolayermodel/two_layer_model.py:TwoLayerModel", "src/openscm_twolayermodel/impulse_response_model.py:ImpulseResponseModel", "src/openscm_twolayermodel/base.py:TwoLayerVariant.run_scenarios"]}
{"id": "C122", "title": "Which project setup.py reports the version of", "statement": "versioneer.get_versions()/get_version() of setup.py. (1) In the directory of this project (setup.py or versioneer.py there, and its setup.cfg) it reports what C78, C79 and C81 are about, whatever sys.argv[0] is. (2) `python path/to/setup.py` from a directory with neither setup.py nor versioneer.py reports what it reports in the directory of the project. (3) A setup.py or versioneer.py in the working directory comes first: from another project's directory, `python path/to/setup.py` reports the version of that other project. (4) VersioneerBadRootError is raised exactly if neither the working directory nor that of the script has one of the two files. (5) The answer depends only on the version file, on what git answers in the directory and on the names of the directory and the two above it. (6) In an unpacked release whose version file is that of a record, these commands report the record, wherever it was unpacked and whatever git says. (7) With a setup.cfg that can be read, the settings demanded are exactly VCS = git, versionfile_source and tag_prefix; any other failure comes from the search for a version. (8) After `setup.py sdist` in a source tree of this project, with setup.py, setup.cfg and the version file among the files, setup.py reports the record that sdist wrote, in the tree it made and wherever these files are unpacked.", "quantifier": "all file systems, working directories and script paths, all answers of git, all configurations", "why_tests_cant": "A test fixes one directory layout; the claims are about all other files and directories.", "anchors": ["versioneer.py:get_root", "versioneer.py:get_versions", "versioneer.py:get_version", "setup.py"]}
