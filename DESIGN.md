# Formal model of SUAVE – design

Source: `/repo` (suavecode/SUAVE, pinned commit), read as text only. All paths
below are relative to `/repo/trunk/SUAVE` unless they start with `trunk/`.

## Approach

Each modelled Python function becomes a small total Lean function that follows
the Python branch by branch. Exceptions are values (`Except`/`Option`/an error
constructor), mutation becomes "return the new value", loops become folds or
structural recursion (or fuel where the Python loop has no a-priori bound).
Every definition carries a comment with the file and lines it models and says
what was simplified. For every area there are three kinds of files:

* `Verif/<Area>/Model.lean` or `Verif/<Area>/<Topic>.lean` – the definitions
  (the model of the code);
* `…Lemmas.lean` – helper lemmas (omitted when short);
* `…Props.lean` – the specification vocabulary and the property theorems, with
  an `example` beside each showing that its hypotheses are met.

Property theorems are named `Cnn_…`. A theorem whose name ends in `_partial`
proves less than the English statement; the text next to it says what is
missing. When a property is false of the code, a theorem
`Cnn_…_counterexample` proves the negation with a concrete witness and the
disagreement is listed under "Findings".

## Trusted base

* Lean 4.33.0 kernel; Mathlib as installed.
* Axioms: at most `propext`, `Classical.choice`, `Quot.sound`
  (`#print axioms` on every property theorem, listed at the end; no own axioms, no `sorry`,
  no `native_decide`, no `bv_decide`).
* The reading of the Python source. The code is never executed here.
* Floating point is **not** modelled: numeric code is modelled over `ℝ`, `ℚ`
  or an arbitrary (ordered) field. Rounding, overflow, NaN and inf are outside
  the model unless a definition says otherwise.
* NumPy/SciPy calls are modelled by their documented mathematical meaning
  (`np.clip`, `np.searchsorted`, `np.linalg.inv`, `np.dot`, broadcasting where
  used); where an external solver is called, it is an arbitrary parameter.
* CPython dict semantics: insertion-ordered association lists with unique keys.
* Object identity/aliasing between Python objects is not modelled unless said.

## Plan per property

| Id | Title | Model | Proof | Status |
|----|----|----|----|----|
| C01 | Data.update is a deep merge | `Val` = leaf or association list; `Data.update` as mutual recursion over the items (`Verif/Core/UpdateProps`) | path-level lookup as specification; induction | proved |
| C02 | Data.update keeps key order and key uniqueness | `Val` = leaf or association list; `Data.update` as mutual recursion over the items (`Verif/Core/UpdateProps`) | path-level lookup as specification; induction | proved |
| C03 | deep_set / deep_get laws | `deep_set`, `deep_get` over key lists with index suffixes (`Verif/Core/DeepProps`) | induction on the path; counterexample for indexed names | proved |
| C04 | Index-suffixed names written by deep_set can be read back by deep_get | `deep_set`, `deep_get` over key lists with index suffixes (`Verif/Core/DeepProps`) | induction on the path; counterexample for indexed names | partial |
| C05 | Data.append never overwrites | `append` with string tags, substring count, random draw as parameter (`Verif/Core/AppendProps`) | invariant over append histories | proved |
| C06 | Component containers rename instead of losing elements | `append` with string tags, substring count, random draw as parameter (`Verif/Core/AppendProps`) | invariant over append histories | proved |
| C07 | pack_array / unpack_array (vector mode) round trip | `pack_array`, `unpack_array` over nested values (`Verif/Core/PackProps`) | round trip by mutual induction | proved |
| C08 | DataOrdered keeps insertion order under any history | `DataOrdered` as pointer structure (`Verif/Ordered/Props`) | refinement to an ordered association list; counterexample | proved |
| C09 | Ordered append never loses an element | `DataOrdered` as pointer structure (`Verif/Ordered/Props`) | refinement to an ordered association list; counterexample | partial |
| C10 | Configs: store_diff then pull_base restores the config | `diff`, `store_diff`, `pull_base` (`Verif/Diffed/Props`) | path-level specification; counterexamples | proved |
| C11 | Configs: base edits propagate except where overridden | `diff`, `store_diff`, `pull_base` (`Verif/Diffed/Props`) | path-level specification; counterexamples | proved |
| C12 | Configs: deleted entries stay deleted | `diff`, `store_diff`, `pull_base` (`Verif/Diffed/Props`) | path-level specification; counterexamples | partial |
| C13 | Nexus evaluation cache is transparent | `Nexus` state machine with failing steps (`Verif/Nexus/CacheProps`) | simulation against the uncached machine; counterexample history | proved |
| C14 | A failed evaluation is never mistaken for a cached result | `Nexus` state machine with failing steps (`Verif/Nexus/CacheProps`) | simulation against the uncached machine; counterexample history | partial |
| C15 | Optimizer inputs: scaling, hard bounds and units | helper functions on tables (`Verif/Nexus/TableProps`) | list induction, order reasoning | proved |
| C16 | Constraint signs: non-negative means satisfied | helper functions on tables (`Verif/Nexus/TableProps`) | list induction, order reasoning | partial |
| C17 | Aliases: inputs reach exactly the aliased fields | helper functions on tables (`Verif/Nexus/AliasProps`) | list induction, order reasoning | partial |
| C18 | Finite-difference gradient is exact on affine models | `finite_difference` as sequence of evaluations (`Verif/Nexus/TableProps`) | algebra; trace of the evaluations | proved |
| C19 | Trust-region correction is first-order consistent | corrections and trust-region main loop with arbitrary responses (`Verif/Optim/TrustRegionProps`) | algebra; invariant over runs | proved |
| C20 | Trust-region step control | corrections and trust-region main loop with arbitrary responses (`Verif/Optim/TrustRegionProps`) | algebra; invariant over runs | partial |
| C21 | Particle swarm stays within bounds and only improves | particle swarm state machine, random draws as inputs (`Verif/Optim/SwarmProps`) | invariant over runs | partial |
| C22 | Differential evolution sees each constraint | closure capture as environment lookup; structure as list of pairs (`Verif/Optim/SetupsProps`) | list induction | partial |
| C23 | IPOPT Jacobian structure enumerates the dense matrix | closure capture as environment lookup; structure as list of pairs (`Verif/Optim/SetupsProps`) | list induction | proved |
| C24 | Latin hypercube sampling is stratified | one column of samples as permuted list (`Verif/Num/Lhs`) | permutation and order reasoning | proved |
| C25 | Pseudospectral differentiation is exact on low order data | operators as matrices from distinct nodes (`Verif/Num/SpectralProps`) | matrix algebra, Lagrange basis | proved |
| C26 | Pseudospectral integration inverts differentiation | operators as matrices from distinct nodes (`Verif/Num/SpectralProps`) | matrix algebra, Lagrange basis | proved |
| C27 | Chebyshev differentiation is exact on polynomials | operators as matrices from distinct nodes (`Verif/Num/SpectralProps`) | matrix algebra, Lagrange basis | proved |
| C28 | Bilinear table lookup | table lookup by cell search and clamping (`Verif/Num/InterpProps`) | order reasoning, convex combinations | proved |
| C29 | Cubic spline blending | real functions of the blending argument (`Verif/Num/BlendProps`) | order reasoning, derivatives | proved |
| C30 | soft_max bounds the maximum | real functions of the blending argument (`Verif/Num/BlendProps`) | order reasoning, derivatives | proved |
| C31 | Standard atmosphere is continuous across layers and clamped outside | layer table lookup and hydrostatic integration over ℝ (`Verif/Physics/AtmosphereProps`) | continuity and derivatives | proved |
| C32 | Process runs every step once, in order | processes, containers and the mission as folds (`Verif/Mission/ProcessProps`) | induction over steps and segments | proved |
| C33 | Mission segments chain without gaps | processes, containers and the mission as folds (`Verif/Mission/ChainProps`) | induction over steps and segments | proved |
| C34 | Merged mission states are the concatenation of segment states | merged states as nested arrays with row counts (`Verif/Mission/MergeProps`) | mutual induction; counterexamples | partial |
| C35 | Mass decreases by the integrated fuel flow | processes, containers and the mission as folds (`Verif/Mission/ChainProps`) | induction over steps and segments | proved |
| C36 | Battery energy stays within capacity | battery models with integration operators as parameters (`Verif/Energy/BatteryProps`) | algebra with operator laws; order reasoning | partial |
| C37 | Trapezoidal wing planform identities | planform formulas (`Verif/Geometry/PlanformProps`) | integrals of the chord distribution | partial |
| C38 | Segmented wing planform identities | planform formulas (`Verif/Geometry/PlanformProps`) | integrals of the chord distribution | proved |
| C39 | Control surfaces are split across wing segments without loss | control-surface sections, branch by branch (`Verif/Geometry/LayoutProps`) | interval partition; counterexample | partial |
| C40 | Frame transforms are rotations | 3×3 matrices over ℝ (`Verif/Mission/FramesProps`) | matrix algebra, induction over the axis list | proved |
| C41 | Fuel centre-of-gravity range is the true extreme | greedy filling of tanks (`Verif/Vehicle/MassProps`) | exchange argument over all distributions | proved |
| C42 | Mass roll-up | component trees (`Verif/Vehicle/MassProps`) | mutual induction | partial |
| C43 | Saved results load back | value and JSON trees (`Verif/IO/ArchiveProps`) | structural induction | partial |
| C44 | XML save/load round trip | trees, event streams cut arbitrarily, stack machine (`Verif/IO/XmlProps`) | invariant of the stack machine | partial |
| C45 | Unit conversions round trip | unit containers as finitely supported functions (`Verif/Units/QuantityProps`) | linear algebra of exponents, real powers | partial |
| C46 | Unit dependency ordering | dependency dictionary and path search (`Verif/Units/GraphProps`) | graph induction | proved |
| C47 | Unit conversion path search | dependency dictionary and path search (`Verif/Units/GraphProps`) | graph induction | proved |
| C48 | Output redirection is restored | programs with blocks and exceptions over `sys.stdout` (`Verif/IO/RedirectProps`) | simulation of a lexically scoped interpreter | partial |
| C49 | V-n diagram load factors satisfy the regulation | V-n diagram functions (`Verif/Performance/VnProps`) | linear arithmetic against the regulation tables; list induction | partial |
| C50 | Payload-range bookkeeping | payload-range points and iteration over an arbitrary mission function (`Verif/Performance/PayloadRangeProps`) | linear arithmetic; contraction | partial |
| C51 | Optimization history round trip | history file on the level of characters (`Verif/IO/HistoryProps`) | string induction; counterexamples | partial |
| C52 | translate reports physical values | `translate` as table function (`Verif/Nexus/TableProps`) | list induction; counterexample | partial |
| C53 | Finite differences: cost and side effect | `finite_difference` as sequence of evaluations (`Verif/Nexus/CacheProps`) | algebra; trace of the evaluations | partial |
| C54 | Names that collide with container methods | attribute access of ordered data (`Verif/Ordered/Props`) | case analysis; counterexample | partial |
| C55 | Trust-region optimizer returns an accepted point | trust-region main loop (`Verif/Optim/TrustRegionProps`) | invariant over runs; counterexample | partial |
| C56 | SLSQP constraint form agrees with the violation measure | constraint forms (`Verif/Optim/TrustRegionProps`) | order reasoning; counterexample | partial |
| C57 | Particle swarm reports the best feasible point it evaluated | particle swarm state machine, random draws as inputs (`Verif/Optim/SwarmProps`) | invariant over runs | partial |
| C58 | Optimizer set-ups pose the constraints as written | optimizer set-ups as table translations (`Verif/Optim/SetupsProps`) | list induction; counterexamples | partial |
| C59 | A NaN evaluation is reported as failed | optimizer set-ups as table translations (`Verif/Optim/SetupsProps`) | list induction; counterexamples | partial |
| C60 | Linear collocation data differentiates polynomials | operators as matrices from distinct nodes (`Verif/Num/SpectralProps`) | matrix algebra, Lagrange basis | partial |
| C61 | Atmosphere is in hydrostatic balance | layer table lookup and hydrostatic integration over ℝ (`Verif/Physics/AtmosphereProps`) | continuity and derivatives | proved |
| C62 | Analysis containers visit every analysis once, in order | processes, containers and the mission as folds (`Verif/Mission/ProcessProps`) | induction over steps and segments | partial |
| C63 | Later segments leave earlier results unchanged | processes, containers and the mission as folds (`Verif/Mission/ChainProps`) | induction over steps and segments | partial |
| C64 | Climb and descent segments fly the requested profile | segment profiles over control points, operators as parameters (`Verif/Mission/ProfileProps`) | algebra; operator laws; counterexamples | proved |
| C65 | Altitude history agrees with vertical speed | segment profiles over control points, operators as parameters (`Verif/Mission/ProfileProps`) | algebra; operator laws; counterexamples | partial |
| C66 | Cruise distance, loiter and hover time | segment profiles over control points, operators as parameters (`Verif/Mission/ProfileProps2`) | algebra; operator laws; counterexamples | proved |
| C67 | Dynamic-pressure segments fly at the requested dynamic pressure | segment profiles over control points, operators as parameters (`Verif/Mission/PointsProps`, `Verif/Mission/ProfileProps2`) | algebra; operator laws; counterexamples | partial |
| C68 | Acceleration segments meet their end speeds | segment profiles over control points, operators as parameters (`Verif/Mission/ProfileProps2`) | algebra; operator laws; counterexamples | partial |
| C69 | Pitch segments meet their end angles | segment profiles over control points, operators as parameters (`Verif/Mission/ProfileProps2`) | algebra; operator laws; counterexamples | partial |
| C70 | Zero residual means force balance | residuals (`Verif/Mission/ProfileProps2`) | linear algebra | proved |
| C71 | Noise segments sample every half second | noise segments as sample lists (`Verif/Mission/ProfileProps2`) | arithmetic of floors | partial |
| C72 | Ground friction opposes the motion | ground forces (`Verif/Mission/ProfileProps2`) | order reasoning; counterexample | partial |
| C73 | Battery ageing never runs backwards | battery models with integration operators as parameters (`Verif/Energy/BatteryProps`) | algebra with operator laws; order reasoning | proved |
| C74 | Battery cooling follows the flow regime | battery models with integration operators as parameters (`Verif/Energy/BatteryProps`) | algebra with operator laws; order reasoning | partial |
| C75 | Trapezoidal and segmented planforms agree | planform formulas (`Verif/Geometry/PlanformProps`) | integrals of the chord distribution | partial |
| C76 | Segment properties add up | planform formulas (`Verif/Geometry/PlanformProps`) | integrals of the chord distribution | proved |
| C77 | Origins survive being made non-dimensional | origins and fuselage lengths (`Verif/Geometry/LayoutProps`) | algebra; counterexamples | partial |
| C78 | Fuselage lengths add up and are stable | origins and fuselage lengths (`Verif/Geometry/LayoutProps`) | algebra; counterexamples | partial |
| C79 | Lift and drag are resolved along the flight path | 3×3 matrices over ℝ (`Verif/Mission/FramesProps`) | matrix algebra, induction over the axis list | partial |
| C80 | Aerodynamic forces respect the limits | aerodynamic clamps (`Verif/Mission/FramesProps`) | order reasoning | proved |
| C81 | Latitude and longitude follow the ground track | ground track (`Verif/Mission/FramesProps`) | integration operator laws; counterexamples | partial |
| C82 | Appended components land in the container of their kind | container dispatch and placement formulas (`Verif/Vehicle/MassProps`) | case analysis, list induction; counterexamples | partial |
| C83 | Estimated component positions use the right references | container dispatch and placement formulas (`Verif/Vehicle/MassProps`) | case analysis, list induction; counterexamples | partial |
| C84 | Working in another folder | file system as a function, block body as an arbitrary program (`Verif/IO/FolderProps`) | induction over the file lists; counterexamples | partial |
| C85 | V-n diagram speeds | V-n diagram functions (`Verif/Performance/VnProps`) | linear arithmetic against the regulation tables; list induction | partial |
| C86 | Stall line of the V-n diagram | V-n diagram functions (`Verif/Performance/VnProps`) | linear arithmetic against the regulation tables; list induction | proved |
| C87 | Gust corner of the V-n diagram | V-n diagram functions (`Verif/Performance/VnProps`) | linear arithmetic against the regulation tables; list induction | partial |
| C88 | Payload-range fuel iteration | payload-range points and iteration over an arbitrary mission function (`Verif/Performance/PayloadRangeProps`) | linear arithmetic; contraction | proved |
| C89 | Ram compression and the ideal inlet undo each other | engine components as functions of one row of conditions, turbofan as their composition (`Verif/Energy/GasTurbineProps`) | real powers, algebra; counterexamples with γ = 2 | partial |
| C90 | Energy is conserved through the engine | engine components as functions of one row of conditions, turbofan as their composition (`Verif/Energy/GasTurbineProps`) | real powers, algebra; counterexamples with γ = 2 | partial |
| C91 | Nozzle exit state | engine components as functions of one row of conditions, turbofan as their composition (`Verif/Energy/GasTurbineProps`) | real powers, algebra; counterexamples with γ = 2 | partial |
| C92 | Thrust bookkeeping | engine components as functions of one row of conditions, turbofan as their composition (`Verif/Energy/GasTurbineProps`) | real powers, algebra; counterexamples with γ = 2 | proved |
| C93 | Engine sizing and engine out | engine components as functions of one row of conditions, turbofan as their composition (`Verif/Energy/GasTurbineProps`) | real powers, algebra; counterexamples with γ = 2 | partial |
| C94 | Polytropic efficiency | engine components as functions of one row of conditions, turbofan as their composition (`Verif/Energy/GasTurbineProps`) | real powers, algebra; counterexamples with γ = 2 | proved |
| C95 | Exit conditions reported for noise | engine components as functions of one row of conditions, turbofan as their composition (`Verif/Energy/GasTurbineProps`) | real powers, algebra; counterexamples with γ = 2 | partial |
| C96 | Shock relations conserve mass, momentum and energy | shock relations and shock angle as in the code, train as a fold (`Verif/Physics/ShockProps`) | conservation laws by algebra; entropy by monotonicity; triple angle formula; induction over the shocks | proved |
| C97 | Shock angle | shock relations and shock angle as in the code, train as a fold (`Verif/Physics/ShockProps`) | conservation laws by algebra; entropy by monotonicity; triple angle formula; induction over the shocks | proved |
| C98 | Shock trains and the scramjet inlet | shock relations and shock angle as in the code, train as a fold (`Verif/Physics/ShockProps`) | conservation laws by algebra; entropy by monotonicity; triple angle formula; induction over the shocks | proved |
| C99 | Heat addition and thermal choking | equations given to the root finder; its result is any root (`Verif/Physics/ShockProps`) | algebra, intermediate value theorem | proved |
| C100 | Area and Mach number | equations given to the root finder; its result is any root (`Verif/Physics/ShockProps`) | algebra, intermediate value theorem | proved |
| C101 | Scramjet burner and nozzle | burner, nozzles, stream thrust; the network keeps what sizing left in the inputs (`Verif/Energy/ScramjetProps`) | algebra, order reasoning; counterexamples | partial |
| C102 | Scramjet thrust | burner, nozzles, stream thrust; the network keeps what sizing left in the inputs (`Verif/Energy/ScramjetProps`) | algebra, order reasoning; counterexamples | partial |
| C103 | Ramjet nozzle regimes | burner, nozzles, stream thrust; the network keeps what sizing left in the inputs (`Verif/Energy/ScramjetProps`) | algebra, order reasoning; counterexamples | partial |
| C104 | Motor speed under a propeller load | motors as functions of voltage, speed and load (`Verif/Energy/ElectricProps`) | quadratics, order reasoning; counterexamples | partial |
| C105 | Torque and voltage are inverse descriptions of the motor | motors as functions of voltage, speed and load (`Verif/Energy/ElectricProps`) | quadratics, order reasoning; counterexamples | proved |
| C106 | Power balance of the motor | motors as functions of voltage, speed and load (`Verif/Energy/ElectricProps`) | quadratics, order reasoning; counterexamples | partial |
| C107 | Low-fidelity motor runs at its efficiency | motors as functions of voltage, speed and load (`Verif/Energy/NetworkProps`) | quadratics, order reasoning; counterexamples | partial |
| C108 | Speed controller | speed controller; networks as a fold over arbitrary propellers (`Verif/Energy/NetworkProps`) | induction over the propeller list; counterexamples | partial |
| C109 | Battery and propeller network | speed controller; networks as a fold over arbitrary propellers (`Verif/Energy/NetworkProps`) | induction over the propeller list; counterexamples | partial |
| C110 | Lift and cruise network | speed controller; networks as a fold over arbitrary propellers (`Verif/Energy/NetworkProps`) | induction over the propeller list; counterexamples | proved |
| C111 | Gearbox | gearbox, solar logic, ducted-fan networks (`Verif/Energy/NetworkProps`) | algebra; counterexamples | partial |
| C112 | Solar networks | gearbox, solar logic, ducted-fan networks (`Verif/Energy/NetworkProps`) | algebra; counterexamples | partial |
| C113 | Ducted-fan networks | gearbox, solar logic, ducted-fan networks (`Verif/Energy/NetworkProps`) | algebra; counterexamples | partial |
| C114 | Solar flux on the panel | sun position and flux, one row (`Verif/Energy/SunProps`) | trigonometric identities, floor arithmetic; counterexamples at the pole and the equator | partial |
| C115 | Path through the atmosphere | sun position and flux, one row (`Verif/Energy/SunProps`) | trigonometric identities, floor arithmetic; counterexamples at the pole and the equator | partial |
| C116 | The sun depends on the instant and the place | sun position and flux, one row (`Verif/Energy/SunProps`) | trigonometric identities, floor arithmetic; counterexamples at the pole and the equator | partial |
| C117 | Adding sound levels adds energies | levels as reals, sums over lists; bands as intervals (`Verif/Noise/LevelProps`) | real powers and logarithms, induction, permutation; counterexamples | partial |
| C118 | The noise of a segment is that of its sources | the loop over networks as a fold writing rows; rotor noise arbitrary (`Verif/Noise/Segment`) | induction over the sources; counterexamples | partial |
| C119 | Third octave bands keep the energy of the harmonics | levels as reals, sums over lists; bands as intervals (`Verif/Noise/LevelProps`) | real powers and logarithms, induction, permutation; counterexamples | partial |
| C120 | Exposure levels integrate the loud part of a flyover | the procedures as in the code on functions of the index (`Verif/Noise/EpnlProps`) | loop invariants, case analysis, interval bounds of logarithms; counterexamples | partial |
| C121 | Tone correction | the procedures as in the code on functions of the index (`Verif/Noise/ToneProps`) | loop invariants, case analysis, interval bounds of logarithms; counterexamples | partial |
| C122 | Perceived noise level | the procedures as in the code on functions of the index (`Verif/Noise/PnlProps`) | loop invariants, case analysis, interval bounds of logarithms; counterexamples | partial |
| C123 | A-weighting | the procedures as in the code on functions of the index (`Verif/Noise/WeightProps`) | loop invariants, case analysis, interval bounds of logarithms; counterexamples | proved |
| C124 | Microphone grids | grids by index, geometry of one row (`Verif/Noise/MicrophoneProps`) | index arithmetic, trigonometry; counterexamples | partial |
| C125 | Microphone geometry | grids by index, geometry of one row (`Verif/Noise/MicrophoneProps`) | index arithmetic, trigonometry; counterexamples | partial |
| C126 | Certification limits | limits with rounding, correlations (`Verif/Noise/Certification`) | monotonicity of log and rounding; counterexamples | partial |
| C127 | Airframe noise adds its components | component formulas at one frequency, their sum, the loop over time (`Verif/Noise/AirframeProps`) | real powers and logarithms; counterexamples | partial |
| C128 | Correlation noise of jet transports | limits with rounding, correlations (`Verif/Noise/Certification`) | monotonicity of log and rounding; counterexamples | partial |
| C129 | Skin friction of a flat plate | friction and form factors of one row (`Verif/Aero/FrictionProps`) | real powers, logarithms, series bounds of artanh; counterexamples | partial |
| C130 | Form factors and wetted areas | friction and form factors of one row (`Verif/Aero/ParasiteProps`) | real powers, logarithms, series bounds of artanh; counterexamples | partial |
| C131 | Parasite drag adds up | the breakdown as a map from names, updated in place (`Verif/Aero/DragProps`) | induction over the parts; counterexamples | partial |
| C132 | Induced drag | sums over lists of wings and parts (`Verif/Aero/DragProps`) | induction, algebra; counterexamples | partial |
| C133 | Drag rise of a wing | drag rise, wave drag as functions of Mach number; masked assignments on lists (`Verif/Aero/CompressProps`) | monotonicity of powers, continuity, Bernstein form of a polynomial; counterexamples | partial |
| C134 | Total drag | sums over lists of wings and parts (`Verif/Aero/DragProps`) | induction, algebra; counterexamples | partial |
| C135 | Wave drag | drag rise, wave drag as functions of Mach number; masked assignments on lists (`Verif/Aero/CompressProps`) | monotonicity of powers, continuity, Bernstein form of a polynomial; counterexamples | partial |
| C136 | Maximum lift with flaps and slats | correlations of one row (`Verif/Aero/HighLiftProps`) | sign of polynomials in Bernstein form; counterexamples | partial |
| C137 | Lift and drag through stall | the branches of the procedure, one row (`Verif/Aero/AerodasProps`) | Bernoulli's inequality, monotonicity of sine; counterexamples | partial |
| C138 | The weight statement adds up | the loop over networks, wings and fuselages with their weights as inputs; the vehicle tree of C07 (`Verif/Weights/PartsProps`, `Verif/Weights/TransportProps`) | induction over the collections, algebra; counterexamples | partial |
| C139 | Component masses add up to the take-off mass | the loop over networks, wings and fuselages with their weights as inputs; the vehicle tree of C07 (`Verif/Weights/TransportProps`) | induction over the collections, algebra; counterexamples | partial |
| C140 | Weight reduction factors | the loop over networks, wings and fuselages with their weights as inputs; the vehicle tree of C07 (`Verif/Weights/TransportProps`) | induction over the collections, algebra; counterexamples | partial |
| C141 | What the weight analyses store | the loop over networks, wings and fuselages with their weights as inputs; the vehicle tree of C07 (`Verif/Weights/TransportProps`) | induction over the collections, algebra; counterexamples | partial |
| C142 | Parts of gear, payload, operating items and systems add up | the correlations function by function over the reals, aircraft type as string (`Verif/Weights/CommonProps`, `Verif/Weights/FlopsProps`, `Verif/Weights/PartsProps`) | case analysis, monotonicity of floor; counterexamples | partial |
| C143 | Weights and seats | the correlations function by function over the reals, aircraft type as string (`Verif/Weights/CommonProps`, `Verif/Weights/FlopsProps`, `Verif/Weights/PartsProps`) | case analysis, monotonicity of floor; counterexamples | partial |
| C144 | Fuselage and wing weights | tube index, wing formula, antiderivative of a panel of constant thickness (`Verif/Weights/CommonProps`) | monotonicity; fundamental theorem of calculus; induction over the stations; counterexamples | partial |
| C145 | Tails, engines and motors | the correlations over the reals (`Verif/Weights/CommonProps`, `Verif/Weights/FlopsProps`, `Verif/Weights/PartsProps`) | monotonicity and subadditivity of powers; counterexamples | partial |
| C146 | The FLOPS wing | the simple method; stations and area of the complex one on lists (`Verif/Weights/FlopsProps`, `Verif/Weights/PartsProps`) | algebra, telescoping sums; counterexamples | partial |
| C147 | FLOPS gear, fuselage, tails and anti-icing | the correlations over the reals (`Verif/Weights/FlopsProps`, `Verif/Weights/PartsProps`) | monotonicity and subadditivity of powers; counterexamples | partial |
| C148 | Weights of light aircraft | the build-up with optional surfaces and fuel; the correlations over the reals; the vehicle tree of C07 (`Verif/Weights/LightProps`, `Verif/Weights/PartsProps`) | case analysis, monotonicity of powers, Bernoulli inequality; counterexamples | partial |
| C149 | Component masses of light aircraft and blended wing bodies | the build-up with optional surfaces and fuel; the correlations over the reals; the vehicle tree of C07 (`Verif/Weights/LightProps`) | case analysis, monotonicity of powers, Bernoulli inequality; counterexamples | partial |
| C150 | Blended wing bodies, human-powered aircraft and UAVs | the build-up with optional surfaces and fuel; the correlations over the reals; the vehicle tree of C07 (`Verif/Weights/LightProps`) | case analysis, monotonicity of powers, Bernoulli inequality; counterexamples | partial |
| C151 | Wing of the physics-based build-up | stations as functions of an index, reversed cumulative sums as sums outboard of a station; polygon properties of the section as inputs (`Verif/Weights/BuildupProps`, `Verif/Weights/PartsProps`) | telescoping sums, monotonicity; contraction with geometric bound for the iteration; counterexamples | partial |
| C152 | Fuselage and wiring of the build-up | stations as functions of an index, reversed cumulative sums as sums outboard of a station; polygon properties of the section as inputs (`Verif/Weights/BuildupProps`, `Verif/Weights/PartsProps`) | telescoping sums, monotonicity; contraction with geometric bound for the iteration; counterexamples | partial |
| C153 | Rotor blades of the build-up | stations as functions of an index, reversed cumulative sums as sums outboard of a station; polygon properties of the section as inputs (`Verif/Weights/BuildupProps`) | telescoping sums, monotonicity; contraction with geometric bound for the iteration; counterexamples | partial |
| C154 | Weight of electric vertical take-off aircraft | networks as an inductive type, running sums as state, rotor and wing masses as functions; the loop with a counter (`Verif/Weights/BuildupProps`, `Verif/Weights/PartsProps`) | induction over networks and iterations; contraction; counterexamples | partial |
| C155 | Convergence of take-off mass | networks as an inductive type, running sums as state, rotor and wing masses as functions; the loop with a counter (`Verif/Weights/BuildupProps`) | induction over networks and iterations; contraction; counterexamples | partial |
| C156 | Landing field length | atmosphere and maximum lift as numbers, thrust as a function of speed, the polynomial loop (`Verif/Performance/FieldProps`) | the loop equals a sum; monotonicity; force balance at V2; counterexamples | partial |
| C157 | Take-off field length | atmosphere and maximum lift as numbers, thrust as a function of speed, the polynomial loop (`Verif/Performance/FieldProps`) | the loop equals a sum; monotonicity; force balance at V2; counterexamples | proved |
| C158 | Second-segment climb | atmosphere and maximum lift as numbers, thrust as a function of speed, the polynomial loop (`Verif/Performance/FieldProps`) | the loop equals a sum; monotonicity; force balance at V2; counterexamples | partial |
| C159 | Take-off weight for a field length | `np.interp` by recursion over the table, the vehicle as a record that is returned (`Verif/Performance/FieldProps`) | monotone and node lemmas for interpolation, convexity of the chord; counterexample | partial |
| C160 | Electric payload-range diagram | missions, drag and power as functions; the minimizer as any result within its contract (`Verif/Performance/FieldProps`) | case analysis; counterexamples | partial |
| C161 | Climb-rate diagram | missions, drag and power as functions; the minimizer as any result within its contract (`Verif/Performance/FieldProps`) | case analysis; counterexamples | partial |
| C162 | Best speeds | missions, drag and power as functions; the minimizer as any result within its contract (`Verif/Performance/FieldProps`) | case analysis; counterexamples | proved |
| C163 | Price levels and hourly rates | tables as lists, the formulae line by line with real powers, the yearly loop with the list of earlier years (`Verif/Costs/IndustrialProps`) | interpolation lemmas, antitone powers, telescoping invariant of the loop; counterexamples | partial |
| C164 | Industrial costs add up | tables as lists, the formulae line by line with real powers, the yearly loop with the list of earlier years (`Verif/Costs/IndustrialProps`) | interpolation lemmas, antitone powers, telescoping invariant of the loop; counterexamples | partial |
| C165 | Unit cost falls with production | tables as lists, the formulae line by line with real powers, the yearly loop with the list of earlier years (`Verif/Costs/IndustrialProps`) | interpolation lemmas, antitone powers, telescoping invariant of the loop; counterexamples | proved |
| C166 | Prototypes are paid once | tables as lists, the formulae line by line with real powers, the yearly loop with the list of earlier years (`Verif/Costs/IndustrialProps`) | interpolation lemmas, antitone powers, telescoping invariant of the loop; counterexamples | partial |
| C167 | Cash flow distributes the non-recurring costs | tables as lists, the formulae line by line with real powers, the yearly loop with the list of earlier years (`Verif/Costs/IndustrialProps`) | interpolation lemmas, antitone powers, telescoping invariant of the loop; counterexamples | partial |
| C168 | Sweep conversion follows the planform | planforms as records of stored numbers, beside a specification trapezoid with edges as lines (`Verif/Stability/PlanformProps`) | tangent identities, integrals of the chord; counterexamples | partial |
| C169 | Extending a surface to the centre line continues its outline | planforms as records of stored numbers, beside a specification trapezoid with edges as lines (`Verif/Stability/PlanformProps`) | tangent identities, integrals of the chord; counterexamples | partial |
| C170 | Mean aerodynamic chord and aerodynamic centre | planforms as records of stored numbers, beside a specification trapezoid with edges as lines (`Verif/Stability/PlanformProps`) | tangent identities, integrals of the chord; counterexamples | partial |
| C171 | Lift-curve slope | the formulae, surfaces and fuselages as lists (`Verif/Stability/StaticProps`) | order lemmas for quotients, sums over permutations, unique zero of an affine function; counterexamples | partial |
| C172 | Pitch stability of an aircraft | the formulae, surfaces and fuselages as lists (`Verif/Stability/StaticProps`) | order lemmas for quotients, sums over permutations, unique zero of an affine function; counterexamples | partial |
| C173 | Yaw stability of an aircraft | the formulae, surfaces and fuselages as lists (`Verif/Stability/StaticProps`) | order lemmas for quotients, sums over permutations, unique zero of an affine function; counterexamples | partial |
| C174 | Static margin and neutral point agree with the moment slope | the formulae, surfaces and fuselages as lists (`Verif/Stability/StaticProps`) | order lemmas for quotients, sums over permutations, unique zero of an affine function; counterexamples | partial |
| C175 | Mode approximations solve the reduced equations of motion | the formulae; `numpy.poly1d` products as polynomials, the root finder as any sorted list of all roots (`Verif/Stability/ModesProps`) | nontrivial kernel of a 3x3 system iff determinant zero, over the complex numbers; counterexamples | proved |
| C176 | Longitudinal modes | the formulae; `numpy.poly1d` products as polynomials, the root finder as any sorted list of all roots (`Verif/Stability/ModesProps`) | nontrivial kernel of a 3x3 system iff determinant zero, over the complex numbers; counterexamples | partial |
| C177 | Lateral modes | the formulae; `numpy.poly1d` products as polynomials, the root finder as any sorted list of all roots (`Verif/Stability/ModesProps`) | nontrivial kernel of a 3x3 system iff determinant zero, over the complex numbers; counterexamples | partial |
| C178 | State-space flight modes | matrices applied to states row by row, eigenvalues as arguments; difference quotients over arbitrary coefficient functions (`Verif/Stability/FlightModesProps`) | linear systems solved both ways, complex exponential of the mode, all placements of the pair; counterexamples | partial |
| C179 | Aerodynamic derivatives by differences are derivatives | matrices applied to states row by row, eigenvalues as arguments; difference quotients over arbitrary coefficient functions (`Verif/Stability/FlightModesProps`) | linear systems solved both ways, complex exponential of the mode, all placements of the pair; counterexamples | partial |
| C180 | Rotor thrust and torque integrate the blade loading | one control point, arrays as functions of station and azimuth, the root finder as an arbitrary wake parameter (`Verif/Rotor/BladeProps`) | summation by parts, sums of roots of unity, trigonometric identities, power identity at a station summed; counterexamples | proved |
| C181 | Velocities seen by the blades | one control point, arrays as functions of station and azimuth, the root finder as an arbitrary wake parameter (`Verif/Rotor/BladeProps`) | summation by parts, sums of roots of unity, trigonometric identities, power identity at a station summed; counterexamples | partial |
| C182 | Induced velocity of the wake | one control point, arrays as functions of station and azimuth, the root finder as an arbitrary wake parameter (`Verif/Rotor/BladeProps`) | summation by parts, sums of roots of unity, trigonometric identities, power identity at a station summed; counterexamples | partial |
| C183 | Power balance of a rotor | one control point, arrays as functions of station and azimuth, the root finder as an arbitrary wake parameter (`Verif/Rotor/BladeProps`, `Verif/Rotor/PowerProps`) | summation by parts, sums of roots of unity, trigonometric identities, power identity at a station summed; counterexamples | proved |
| C184 | Rotor coefficients and switched-off rotors | the reported record from the totals, switches as conditionals; rotation matrices over Fin 3 (`Verif/Rotor/PowerProps`) | case analysis, orthogonality; counterexamples | partial |
| C185 | Orientation of rotors | the reported record from the totals, switches as conditionals; rotation matrices over Fin 3 (`Verif/Rotor/PowerProps`) | case analysis, orthogonality; counterexamples | proved |
| C186 | Blade sections | formulae with `arctan2` as complex argument and `arccos`; the broadcast of the thickness as an index rule (`Verif/Rotor/SectionProps`) | order lemmas for real powers, arccos and exp; counterexamples | partial |
| C187 | Tip loss | formulae with `arctan2` as complex argument and `arccos`; the broadcast of the thickness as an index rule (`Verif/Rotor/SectionProps`) | order lemmas for real powers, arccos and exp; counterexamples | proved |
| C188 | Contraction of the rotor wake | recursion over stations; span tables as lists with `np.interp`, rotors folded in order (`Verif/Rotor/WakeProps`) | induction, interpolation on appended and mirrored tables; counterexamples | proved |
| C189 | Slipstream of rotors on wings | recursion over stations; span tables as lists with `np.interp`, rotors folded in order (`Verif/Rotor/WakeProps`) | induction, interpolation on appended and mirrored tables; counterexamples | partial |
| C190 | Propeller design | integrals as sums over stations, final stage from the integrals (`Verif/Rotor/DesignProps`) | quadratic roots, sign lemmas for trigonometric functions, sums of inequalities; counterexample | partial |
| C191 | Velocity of a horseshoe vortex | one entry of the influence arrays: frame of the vortex, subsonic and supersonic kernels, rotation back; `arctan2` as complex argument (`Verif/Vlm/HorseshoeProps`) | improper integrals by antiderivatives, algebra of the frame, case analysis of the cones | proved |
| C192 | Compressibility of the vortex lattice below the speed of sound | one entry of the influence arrays: frame of the vortex, subsonic and supersonic kernels, rotation back; `arctan2` as complex argument (`Verif/Vlm/HorseshoeProps`) | improper integrals by antiderivatives, algebra of the frame, case analysis of the cones | proved |
| C193 | Symmetry of the induced velocity | one entry of the influence arrays: frame of the vortex, subsonic and supersonic kernels, rotation back; `arctan2` as complex argument (`Verif/Vlm/HorseshoeSym`) | improper integrals by antiderivatives, algebra of the frame, case analysis of the cones | proved |
| C194 | Supersonic zone of silence | one entry of the influence arrays: frame of the vortex, subsonic and supersonic kernels, rotation back; `arctan2` as complex argument (`Verif/Vlm/HorseshoeSym`) | improper integrals by antiderivatives, algebra of the frame, case analysis of the cones | proved |
| C195 | Onset flow of the vortex lattice | one panel: onset flow, both right-hand sides, one entry of the influence matrix, normal and area; networks as a list with the early return (`Verif/Vlm/BoundaryProps`) | vector identities; the linear system as a hypothesis on the circulations; counterexamples | proved |
| C196 | No flow through the wing | one panel: onset flow, both right-hand sides, one entry of the influence matrix, normal and area; networks as a list with the early return (`Verif/Vlm/BoundaryProps`) | vector identities; the linear system as a hypothesis on the circulations; counterexamples | partial |
| C197 | Slipstreams seen by the lattice | one panel: onset flow, both right-hand sides, one entry of the influence matrix, normal and area; networks as a list with the early return (`Verif/Vlm/BoundaryProps`) | vector identities; the linear system as a hypothesis on the circulations; counterexamples | partial |
| C198 | Panel normals and areas | one panel: onset flow, both right-hand sides, one entry of the influence matrix, normal and area; networks as a list with the early return (`Verif/Vlm/BoundaryProps`) | vector identities; the linear system as a hypothesis on the circulations; counterexamples | proved |
| C199 | Resolution of lattice forces and moments | strips as records in a list; prefix sums over a flat index with strip lengths; wings as a list (`Verif/Vlm/ForcesProps`) | vector sums by induction, trigonometric identities; index lemmas; loop invariant; counterexamples | proved |
| C200 | Strip forces follow the chord | strips as records in a list; prefix sums over a flat index with strip lengths; wings as a list (`Verif/Vlm/ForcesProps`) | vector sums by induction, trigonometric identities; index lemmas; loop invariant; counterexamples | partial |
| C201 | Circulation accumulated along strips | strips as records in a list; prefix sums over a flat index with strip lengths; wings as a list (`Verif/Vlm/ForcesProps`) | vector sums by induction, trigonometric identities; index lemmas; loop invariant; counterexamples | proved |
| C202 | Reference point and velocity guard | strips as records in a list; prefix sums over a flat index with strip lengths; wings as a list (`Verif/Vlm/ForcesProps`) | vector sums by induction, trigonometric identities; index lemmas; loop invariant; counterexamples | partial |
| C203 | Rotation about a hinge line | the twelve matrix entries; one side of a surface as corners and points; the stored hinge vector passed between sides and calls (`Verif/Vlm/DeflectProps`) | Rodrigues formula, affine maps fix the hinge, reflection of rotations; counterexamples | proved |
| C204 | Deflection of control surfaces | the twelve matrix entries; one side of a surface as corners and points; the stored hinge vector passed between sides and calls (`Verif/Vlm/DeflectProps`) | Rodrigues formula, affine maps fix the hinge, reflection of rotations; counterexamples | proved |
| C205 | Deflection of all-moving surfaces | the twelve matrix entries; one side of a surface as corners and points; the stored hinge vector passed between sides and calls (`Verif/Vlm/DeflectProps`) | Rodrigues formula, affine maps fix the hinge, reflection of rotations; counterexamples | partial |
| C206 | Numbers and spacing of vortices | stations as lists with a moved flag, argmin as a recursive function; the strip loop with the running break; three-way merge with fuel (`Verif/Vlm/StationsProps`) | case analysis, loop invariants, telescoping chord integral; counterexample | proved |
| C207 | Stations on span breaks | stations as lists with a moved flag, argmin as a recursive function; the strip loop with the running break; three-way merge with fuel (`Verif/Vlm/StationsProps`) | case analysis, loop invariants, telescoping chord integral; counterexample | proved |
| C208 | Strips tile the wing | stations as lists with a moved flag, argmin as a recursive function; the strip loop with the running break; three-way merge with fuel (`Verif/Vlm/StationsProps`) | case analysis, loop invariants, telescoping chord integral; counterexample | partial |
| C209 | Merging of span breaks | stations as lists with a moved flag, argmin as a recursive function; the strip loop with the running break; three-way merge with fuel (`Verif/Vlm/StationsProps`) | case analysis, loop invariants, telescoping chord integral; counterexample | proved |
| C210 | Frames of section panels | outline as two functions of the index; influence coefficients entry by entry; the linear system as a hypothesis (`Verif/Airfoil/PanelProps`) | complex line integrals of point singularities by the logarithm, limit at the panel; last row of the system | proved |
| C211 | Flow tangency on sections | outline as two functions of the index; influence coefficients entry by entry; the linear system as a hypothesis (`Verif/Airfoil/PanelProps`) | complex line integrals of point singularities by the logarithm, limit at the panel; last row of the system | proved |
| C212 | Kutta condition | outline as two functions of the index; influence coefficients entry by entry; the linear system as a hypothesis (`Verif/Airfoil/PanelProps`) | complex line integrals of point singularities by the logarithm, limit at the panel; last row of the system | proved |
| C213 | Symmetric sections without incidence | loop over pieces as a sum over a range (`Verif/Airfoil/LoadProps`) | algebra of sums; counterexample | partial |
| C214 | Section forces from pressures | loop over pieces as a sum over a range (`Verif/Airfoil/LoadProps`) | algebra of sums; counterexample | proved |
| C215 | Number of points of a NACA section | digits as a list; stations as lists; thickness and camber polynomials; exceptions as `none` (`Verif/Airfoil/NacaProps`) | derivative of the stretching, polynomial inequalities, list lemmas; counterexamples | proved |
| C216 | Outline of a NACA section | digits as a list; stations as lists; thickness and camber polynomials; exceptions as `none` (`Verif/Airfoil/NacaProps`) | derivative of the stretching, polynomial inequalities, list lemmas; counterexamples | proved |
| C217 | Camber of a NACA section | digits as a list; stations as lists; thickness and camber polynomials; exceptions as `none` (`Verif/Airfoil/NacaProps`) | derivative of the stretching, polynomial inequalities, list lemmas; counterexamples | proved |
| C218 | Reported thickness of a NACA section | digits as a list; stations as lists; thickness and camber polynomials; exceptions as `none` (`Verif/Airfoil/NacaProps`) | derivative of the stretching, polynomial inequalities, list lemmas; counterexamples | partial |
| C219 | Names of NACA sections | digits as a list; stations as lists; thickness and camber polynomials; exceptions as `none` (`Verif/Airfoil/NacaProps`) | derivative of the stretching, polynomial inequalities, list lemmas; counterexamples | partial |
| C220 | Section files with one block per surface | files as lists of lines of characters, a parser of decimals, both loops as recursive functions; thickness paired by index; writer for any printer of numbers (`Verif/Airfoil/CoordinatesProps`) | induction over the lines; counterexamples on concrete files | proved |
| C221 | Section files that run round the section | files as lists of lines of characters, a parser of decimals, both loops as recursive functions; thickness paired by index; writer for any printer of numbers (`Verif/Airfoil/CoordinatesProps`) | induction over the lines; counterexamples on concrete files | partial |
| C222 | Thickness of a section from a file | files as lists of lines of characters, a parser of decimals, both loops as recursive functions; thickness paired by index; writer for any printer of numbers (`Verif/Airfoil/CoordinatesProps`) | induction over the lines; counterexamples on concrete files | partial |
| C223 | Laminar closure relations | closures, right-hand sides, gradient, smoothing, counting and drag of one case; solution of the differential equations not modelled (`Verif/Airfoil/BoundaryLayerProps`) | monotonicity of powers, algebra, filters of ranges; counterexamples | partial |
| C224 | Turbulent shape factor | closures, right-hand sides, gradient, smoothing, counting and drag of one case; solution of the differential equations not modelled (`Verif/Airfoil/BoundaryLayerProps`) | monotonicity of powers, algebra, filters of ranges; counterexamples | partial |
| C225 | One fluid in the boundary layer | closures, right-hand sides, gradient, smoothing, counting and drag of one case; solution of the differential equations not modelled (`Verif/Airfoil/BoundaryLayerProps`) | monotonicity of powers, algebra, filters of ranges; counterexamples | partial |
| C226 | Velocity gradient along the surface | closures, right-hand sides, gradient, smoothing, counting and drag of one case; solution of the differential equations not modelled (`Verif/Airfoil/BoundaryLayerProps`) | monotonicity of powers, algebra, filters of ranges; counterexamples | partial |
| C227 | Removal of jumps | closures, right-hand sides, gradient, smoothing, counting and drag of one case; solution of the differential equations not modelled (`Verif/Airfoil/BoundaryLayerProps`) | monotonicity of powers, algebra, filters of ranges; counterexamples | partial |
| C228 | Transition panel | closures, right-hand sides, gradient, smoothing, counting and drag of one case; solution of the differential equations not modelled (`Verif/Airfoil/BoundaryLayerProps`) | monotonicity of powers, algebra, filters of ranges; counterexamples | partial |
| C229 | Section drag | closures, right-hand sides, gradient, smoothing, counting and drag of one case; solution of the differential equations not modelled (`Verif/Airfoil/BoundaryLayerProps`) | monotonicity of powers, algebra, filters of ranges; counterexamples | partial |
| C230 | Sections between two sections | files as lists of lines of characters, a parser of decimals, both loops as recursive functions; thickness paired by index; writer for any printer of numbers (`Verif/Airfoil/Transition`) | induction over the lines; counterexamples on concrete files | proved |
| C231 | Rocket mass flow | one row: chamber, throat and exit as records; sizing as the function from thrust to mass flow with an optional design point (`Verif/Energy/RocketProps`) | isentropic relations of the gas module, algebra; counterexamples | partial |
| C232 | Rocket thrust | one row: chamber, throat and exit as records; sizing as the function from thrust to mass flow with an optional design point (`Verif/Energy/RocketProps`) | isentropic relations of the gas module, algebra; counterexamples | partial |
| C233 | Rocket sizing | one row: chamber, throat and exit as records; sizing as the function from thrust to mass flow with an optional design point (`Verif/Energy/RocketProps`) | isentropic relations of the gas module, algebra; counterexamples | partial |
| C234 | Fuel cell stack sizing | sizing and discharge functions with the battery or stack as a record (`Verif/Energy/SizingProps`) | algebra, maxima, logarithms; counterexamples | proved |
| C235 | Fuel cell consumption | sizing and discharge functions with the battery or stack as a record (`Verif/Energy/SizingProps`) | algebra, maxima, logarithms; counterexamples | partial |
| C236 | Battery mass for energy and power | sizing and discharge functions with the battery or stack as a record (`Verif/Energy/SizingProps`) | algebra, maxima, logarithms; counterexamples | proved |
| C237 | Battery on the Ragone line | sizing and discharge functions with the battery or stack as a record (`Verif/Energy/SizingProps`) | algebra, maxima, logarithms; counterexamples | proved |
| C238 | Battery from its circuit | sizing and discharge functions with the battery or stack as a record (`Verif/Energy/SizingProps`) | algebra, maxima, logarithms; counterexamples | partial |
| C239 | Piston engine power | one row; power as a function of density ratio, throttle as its inverse; engines and propellers as lists (`Verif/Energy/PistonProps`) | algebra, continuity at the flat rating altitude; sums over lists; counterexamples | partial |
| C240 | Piston engine power demand | one row; power as a function of density ratio, throttle as its inverse; engines and propellers as lists (`Verif/Energy/PistonProps`) | algebra, continuity at the flat rating altitude; sums over lists; counterexamples | partial |
| C241 | Propeller driven by piston engines | one row; power as a function of density ratio, throttle as its inverse; engines and propellers as lists (`Verif/Energy/PistonProps`) | algebra, continuity at the flat rating altitude; sums over lists; counterexamples | partial |
| C242 | Cryocooler power | fits as polynomials of the temperature ratio; leads as records with the bisection as a step function; networks one row at a time (`Verif/Energy/CryoProps`) | algebra, least value of a sum, orbits of the bisection; counterexamples | partial |
| C243 | Cryogen consumption | fits as polynomials of the temperature ratio; leads as records with the bisection as a step function; networks one row at a time (`Verif/Energy/CryoProps`) | algebra, least value of a sum, orbits of the bisection; counterexamples | partial |
| C244 | Current leads | fits as polynomials of the temperature ratio; leads as records with the bisection as a step function; networks one row at a time (`Verif/Energy/CryoProps`) | algebra, least value of a sum, orbits of the bisection; counterexamples | partial |
| C245 | Power of superconducting fan networks | fits as polynomials of the temperature ratio; leads as records with the bisection as a step function; networks one row at a time (`Verif/Energy/CryoProps`) | algebra, least value of a sum, orbits of the bisection; counterexamples | partial |
| C246 | Dynamo fed rotors | fits as polynomials of the temperature ratio; leads as records with the bisection as a step function; networks one row at a time (`Verif/Energy/CryoProps`) | algebra, least value of a sum, orbits of the bisection; counterexamples | partial |
| C247 | Several energy networks | a fold over the networks in `Option`, missing keys as `none` (`Verif/Energy/DeckProps`) | induction over the list; counterexamples | partial |
| C248 | Engine decks | decks as functions with the blend of C29; the optimizer as an arbitrary answer meeting its constraints; integration as a weighted sum (`Verif/Energy/DeckProps`) | blend lemmas, continuity, algebra; counterexamples | partial |
| C249 | Electric motor sizing | decks as functions with the blend of C29; the optimizer as an arbitrary answer meeting its constraints; integration as a weighted sum (`Verif/Energy/DeckProps`) | blend lemmas, continuity, algebra; counterexamples | partial |
| C250 | Turbofan emissions | decks as functions with the blend of C29; the optimizer as an arbitrary answer meeting its constraints; integration as a weighted sum (`Verif/Energy/DeckProps`) | blend lemmas, continuity, algebra; counterexamples | proved |
| C251 | Expansion of a state to its control points | nested states as a mutual inductive type; expansion as structural recursion; arrays as lists of rows (`Verif/Mission/PointsProps`) | induction over paths; counterexamples | partial |
| C252 | Two fuels | columns of the mission model; optimizer and root finder as arbitrary answers; nan as `none` (`Verif/Mission/PointsProps`) | linearity of the integration matrix, concavity of powers, list lemmas; counterexamples | proved |
| C253 | Charging segments | columns of the mission model; optimizer and root finder as arbitrary answers; nan as `none` (`Verif/Mission/PointsProps`) | linearity of the integration matrix, concavity of powers, list lemmas; counterexamples | partial |
| C254 | Calibrated airspeed segments | columns of the mission model; optimizer and root finder as arbitrary answers; nan as `none` (`Verif/Mission/PointsProps`) | linearity of the integration matrix, concavity of powers, list lemmas; counterexamples | partial |
| C255 | Optimized climbs | columns of the mission model; optimizer and root finder as arbitrary answers; nan as `none` (`Verif/Mission/PointsProps`) | linearity of the integration matrix, concavity of powers, list lemmas; counterexamples | partial |
| C256 | Ground runs | columns of the mission model; optimizer and root finder as arbitrary answers; nan as `none` (`Verif/Mission/PointsProps`) | linearity of the integration matrix, concavity of powers, list lemmas; counterexamples | partial |
| C257 | Missions with a variable cruise | columns of the mission model; optimizer and root finder as arbitrary answers; nan as `none` (`Verif/Mission/PointsProps`) | linearity of the integration matrix, concavity of powers, list lemmas; counterexamples | partial |
| C258 | Lifting line lift | stations as finite indices; the solver and the fits as arbitrary answers meeting their contract (`Verif/Aero/LiftingLineProps`) | discrete orthogonality of sines, energy identity of the equations, induction over segments; counterexamples | proved |
| C259 | Lifting line drag | stations as finite indices; the solver and the fits as arbitrary answers meeting their contract (`Verif/Aero/LiftingLineProps`) | discrete orthogonality of sines, energy identity of the equations, induction over segments; counterexamples | partial |
| C260 | Lifting line geometry | stations as finite indices; the solver and the fits as arbitrary answers meeting their contract (`Verif/Aero/LiftingLineProps`) | discrete orthogonality of sines, energy identity of the equations, induction over segments; counterexamples | partial |
| C261 | Lifting line surrogates | stations as finite indices; the solver and the fits as arbitrary answers meeting their contract (`Verif/Aero/LiftingLineProps`) | discrete orthogonality of sines, energy identity of the equations, induction over segments; counterexamples | partial |
| C262 | Blending of the vortex lattice surrogates | surrogates as arbitrary functions, tables as functions of index, surfaces as lists (`Verif/Vlm/AnalysisProps`) | blend lemmas, index arithmetic, induction over wings; counterexamples | proved |
| C263 | Transonic table of the vortex lattice | surrogates as arbitrary functions, tables as functions of index, surfaces as lists (`Verif/Vlm/AnalysisProps`) | blend lemmas, index arithmetic, induction over wings; counterexamples | partial |
| C264 | Training of the vortex lattice surrogates | surrogates as arbitrary functions, tables as functions of index, surfaces as lists (`Verif/Vlm/AnalysisProps`) | blend lemmas, index arithmetic, induction over wings; counterexamples | proved |
| C265 | Coefficients of the wings from the vortex lattice | surrogates as arbitrary functions, tables as functions of index, surfaces as lists (`Verif/Vlm/AnalysisProps`) | blend lemmas, index arithmetic, induction over wings; counterexamples | proved |
| C266 | Equivalent area of lift | panels as a list, sorted unique stations through finite sets; formulas over the reals (`Verif/Aero/SupersonicProps`) | filter sums, Mach angle identity, monotonicity of powers and exponentials; counterexamples | proved |
| C267 | Mach cuts of the equivalent area | panels as a list, sorted unique stations through finite sets; formulas over the reals (`Verif/Aero/SupersonicProps`) | filter sums, Mach angle identity, monotonicity of powers and exponentials; counterexamples | partial |
| C268 | Volume wave drag | panels as a list, sorted unique stations through finite sets; formulas over the reals (`Verif/Aero/SupersonicProps`) | filter sums, Mach angle identity, monotonicity of powers and exponentials; counterexamples | partial |
| C269 | Viscous wake of a wing | panels as a list, sorted unique stations through finite sets; formulas over the reals (`Verif/Aero/SupersonicProps`) | filter sums, Mach angle identity, monotonicity of powers and exponentials; counterexamples | partial |
| C270 | Volume between the spars | formulas over the reals (`Verif/Geometry/SectionsProps`) | integrals of linear chords, powers; counterexample | partial |
| C271 | Stations and chords | formulas over the reals (`Verif/Geometry/SectionsProps`) | integrals of linear chords, powers; counterexample | proved |
| C272 | Tails sized by volume coefficient | formulas over the reals (`Verif/Geometry/SectionsProps`) | integrals of linear chords, powers; counterexample | proved |
| C273 | Fuel volume of a wing | formulas over the reals (`Verif/Geometry/SectionsProps`) | integrals of linear chords, powers; counterexample | proved |
| C274 | Size of a turbofan nacelle | formulas over the reals (`Verif/Geometry/SectionsProps`) | integrals of linear chords, powers; counterexample | proved |
| C275 | Derivatives of the rolling moment | derivatives and modes as functions of records, a missing tail as `none` (`Verif/Stability/ForceDerivProps`, `Verif/Stability/ZeroDynamicsProps`) | integrals of strips, algebra; counterexamples | partial |
| C276 | Derivatives of tails and downwash | derivatives and modes as functions of records, a missing tail as `none` (`Verif/Stability/ZeroDynamicsProps`) | integrals of strips, algebra; counterexamples | partial |
| C277 | Modes of the zero fidelity stability analysis | derivatives and modes as functions of records, a missing tail as `none` (`Verif/Stability/ZeroDynamicsProps`) | integrals of strips, algebra; counterexamples | partial |
| C278 | Section files in two blocks | files as lists of lines of characters, numbers exact decimals; indices as integers (`Verif/Airfoil/FilesProps`) | induction over lines and stations, floor and ceiling; counterexamples | partial |
| C279 | Polar files | files as lists of lines of characters, numbers exact decimals; indices as integers (`Verif/Airfoil/FilesProps`) | induction over lines and stations, floor and ceiling; counterexamples | proved |
| C280 | Mask of a section | files as lists of lines of characters, numbers exact decimals; indices as integers (`Verif/Airfoil/FilesProps`) | induction over lines and stations, floor and ceiling; counterexamples | partial |
| C281 | Scope of unit contexts | programs of nested blocks as trees, weak references as a flag of the strong list; measurements over the reals; words as lists of characters (`Verif/Units/ContextsProps`) | induction over programs with an invariant of the chain; algebra; list lemmas; counterexamples | partial |
| C282 | Arithmetic of measurements | programs of nested blocks as trees, weak references as a flag of the strong list; measurements over the reals; words as lists of characters (`Verif/Units/ContextsProps`) | induction over programs with an invariant of the chain; algebra; list lemmas; counterexamples | partial |
| C283 | Reading of unit names | programs of nested blocks as trees, weak references as a flag of the strong list; measurements over the reals; words as lists of characters (`Verif/Units/ContextsProps`) | induction over programs with an invariant of the chain; algebra; list lemmas; counterexamples | partial |
| C284 | Saved fuselages, nacelles and blades | a file as the record of its declared numbers and lists; points of any type; vertices looked up as a reader does (`Verif/IO/VtkProps`) | index arithmetic of nested loops, telescoping sums; counterexamples | partial |
| C285 | Saved wings | a file as the record of its declared numbers and lists; points of any type; vertices looked up as a reader does (`Verif/IO/VtkProps`) | index arithmetic of nested loops, telescoping sums; counterexamples | partial |
| C286 | Saved rotor wakes | a file as the record of its declared numbers and lists; points of any type; vertices looked up as a reader does (`Verif/IO/VtkWakeProps`) | index arithmetic of nested loops, telescoping sums; counterexamples | partial |
| C287 | Saved vortices of a wing | a file as the record of its declared numbers and lists; points of any type; vertices looked up as a reader does (`Verif/IO/VtkWakeProps`) | index arithmetic of nested loops, telescoping sums; counterexamples | partial |
| C288 | Saved vehicles | files as a list of writes, the last of a name stays; exceptions as `none` (`Verif/IO/VtkWakeProps`) | list lemmas; counterexamples | partial |
| C289 | Two levels of fidelity: the correction | fidelities as arbitrary functions, regression models and optimizers as arbitrary answers; samples as lists (`Verif/Optim/AdditiveProps`) | induction over iterations with the invariant that recorded data are model values; counterexamples | partial |
| C290 | Two levels of fidelity: the problem posed | fidelities as arbitrary functions, regression models and optimizers as arbitrary answers; samples as lists (`Verif/Optim/AdditiveProps`) | induction over iterations with the invariant that recorded data are model values; counterexamples | partial |
| C291 | Expected improvement | density and distribution over the reals (`Verif/Optim/AdditiveProps`) | integral of the density times the argument by its antiderivative, change of variables | proved |
| C292 | Carpet and line plots of a problem | arrays filled by the loops as functions of index; Python slices of lists (`Verif/Optim/AdditiveProps`) | induction over the loops; counterexamples | partial |
| C293 | Optimization with surrogates | arrays filled by the loops as functions of index; Python slices of lists (`Verif/Optim/AdditiveProps`) | induction over the loops; counterexamples | partial |
| C294 | Accuracy of a surrogate by leaving one out | arrays filled by the loops as functions of index; Python slices of lists (`Verif/Optim/AdditiveProps`) | induction over the loops; counterexamples | partial |
| C295 | Where the sound of a propeller was emitted | one control point, microphone, rotor and harmonic; pressures complex, the Bessel function any function; nan excluded (`Verif/Noise/PropellerProps`) | trigonometric identities, uniqueness of the positive root, factors out of the radial integral, antiderivatives; counterexamples | partial |
| C296 | Tones of a propeller | one control point, microphone, rotor and harmonic; pressures complex, the Bessel function any function; nan excluded (`Verif/Noise/PropellerProps`) | trigonometric identities, uniqueness of the positive root, factors out of the radial integral, antiderivatives; counterexamples | partial |
| C297 | Positions of the sources of a rotor | rotations of points, widths and means as finite sums (`Verif/Noise/PropellerProps`) | norms under rotations, telescoping sums, monotonicity of logarithms; counterexamples | partial |
| C298 | Broadband noise of a propeller | rotations of points, widths and means as finite sums (`Verif/Noise/PropellerProps`) | norms under rotations, telescoping sums, monotonicity of logarithms; counterexamples | partial |
| C299 | Level of a propeller | rotations of points, widths and means as finite sums (`Verif/Noise/PropellerProps`) | norms under rotations, telescoping sums, monotonicity of logarithms; counterexamples | partial |
| C300 | Where a jet seems to radiate from | loops with fuel, arrays band by band (`Verif/Noise/JetProps`) | arccotangent, a relaxed step is a contraction, geometric decay of the steps; a stable cycle as counterexample | partial |
| C301 | The mixed jet | one band over the time steps with what is carried over; regressions over the reals (`Verif/Noise/JetProps`) | convexity, shifts of the regressions, induction over steps, limits, scaling of every intermediate quantity; counterexamples | partial |
| C302 | Jet noise falls with distance | one band over the time steps with what is carried over; regressions over the reals (`Verif/Noise/JetProps`) | convexity, shifts of the regressions, induction over steps, limits, scaling of every intermediate quantity; counterexamples | partial |
| C303 | Total jet noise at each step | one band over the time steps with what is carried over; regressions over the reals (`Verif/Noise/JetProps`) | convexity, shifts of the regressions, induction over steps, limits, scaling of every intermediate quantity; counterexamples | partial |
| C304 | Installation effects of a jet | one band over the time steps with what is carried over; regressions over the reals (`Verif/Noise/JetProps`) | convexity, shifts of the regressions, induction over steps, limits, scaling of every intermediate quantity; counterexamples | partial |
| C305 | Jet noise of similar engines | one band over the time steps with what is carried over; regressions over the reals (`Verif/Noise/JetProps`) | convexity, shifts of the regressions, induction over steps, limits, scaling of every intermediate quantity; counterexamples | partial |
| C306 | The wing handed to AVL is the wing of the vehicle | the loop over segments with the sections so far and the running origin; stations as a sorted finite set (`Verif/Avl/GeometryProps`) | induction over segments, indexed statements about neighbours; counterexamples | partial |
| C307 | Control surfaces handed to AVL | the loop over segments with the sections so far and the running origin; stations as a sorted finite set (`Verif/Avl/GeometryProps`) | induction over segments, indexed statements about neighbours; counterexamples | partial |
| C308 | Every wing can be exported to AVL | the loop over segments with the sections so far and the running origin; stations as a sorted finite set (`Verif/Avl/GeometryProps`) | induction over segments, indexed statements about neighbours; counterexamples | partial |
| C309 | The fuselage handed to AVL stays inside the fuselage | offset and chord of a section by real powers, exponent by two tables (`Verif/Avl/GeometryProps`) | monotonicity of real powers, bounds of table values | proved |
| C310 | AVL is run at the requested condition | what AVL is told as a record changed by the run case and the deck, rounding any function within half a unit of the fourth decimal; tags as lists of digits (`Verif/Avl/DeckProps`) | case analysis, sortedness of stations, injectivity of padded decimals; counterexamples | partial |
| C311 | AVL is given the mass of the aircraft | what AVL is told as a record changed by the run case and the deck, rounding any function within half a unit of the fourth decimal; tags as lists of digits (`Verif/Avl/DeckProps`) | case analysis, sortedness of stations, injectivity of padded decimals; counterexamples | partial |
| C312 | Deflections reach the control surface they are meant for | what AVL is told as a record changed by the run case and the deck, rounding any function within half a unit of the fourth decimal; tags as lists of digits (`Verif/Avl/DeckProps`) | case analysis, sortedness of stations, injectivity of padded decimals; counterexamples | partial |
| C313 | Results of AVL come back in order | what AVL is told as a record changed by the run case and the deck, rounding any function within half a unit of the fourth decimal; tags as lists of digits (`Verif/Avl/DeckProps`) | case analysis, sortedness of stations, injectivity of padded decimals; counterexamples | partial |
| C314 | Stability training data survive being saved; one static margin | what AVL is told as a record changed by the run case and the deck, rounding any function within half a unit of the fourth decimal; tags as lists of digits (`Verif/Avl/DeckProps`) | case analysis, sortedness of stations, injectivity of padded decimals; counterexamples | partial |
| C315 | Wings survive a round trip through OpenVSP | sections as functions of the index, breaks as a list with Python indexing, OpenVSP as a store (`Verif/Vsp/WingProps`) | telescoping sums, the panel of a point from the first or last index, addition of tangents; counterexamples | partial |
| C316 | Control surfaces survive a round trip through OpenVSP | sections as functions of the index, breaks as a list with Python indexing, OpenVSP as a store (`Verif/Vsp/WingProps`) | telescoping sums, the panel of a point from the first or last index, addition of tangents; counterexamples | partial |
| C317 | Wing tanks are trimmed where they were asked for | sections as functions of the index, breaks as a list with Python indexing, OpenVSP as a store (`Verif/Vsp/WingProps`) | telescoping sums, the panel of a point from the first or last index, addition of tangents; counterexamples | partial |
| C318 | Sweeps are converted between chord lines | sections as functions of the index, breaks as a list with Python indexing, OpenVSP as a store (`Verif/Vsp/WingProps`) | telescoping sums, the panel of a point from the first or last index, addition of tangents; counterexamples | proved |
| C319 | Heights and lengths of an imported fuselage | recursion over sections, bisection with fuel, minima over masked indices (`Verif/Vsp/BodyProps`) | induction over sections, tan x > x, the bracket shrinks by half, first and last index of the minimum; counterexamples | partial |
| C320 | Exported fuselages have the angles of their sections | recursion over sections, bisection with fuel, minima over masked indices (`Verif/Vsp/BodyProps`) | induction over sections, tan x > x, the bracket shrinks by half, first and last index of the minimum; counterexamples | partial |
| C321 | Fuselage tanks are trimmed where they were asked for | recursion over sections, bisection with fuel, minima over masked indices (`Verif/Vsp/BodyProps`) | induction over sections, tan x > x, the bracket shrinks by half, first and last index of the minimum; counterexamples | partial |
| C322 | Nose and tail of an imported fuselage | recursion over sections, bisection with fuel, minima over masked indices (`Verif/Vsp/BodyProps`) | induction over sections, tan x > x, the bracket shrinks by half, first and last index of the minimum; counterexamples | proved |
| C323 | Nacelles survive a round trip through OpenVSP | what is written composed with what is read (`Verif/Vsp/BodyProps`) | algebra, telescoping sums, monotonicity of the tangent; counterexamples | partial |
| C324 | Propellers survive a round trip through OpenVSP | what is written composed with what is read (`Verif/Vsp/BodyProps`) | algebra, telescoping sums, monotonicity of the tangent; counterexamples | partial |
| C325 | The atmosphere of constant temperature | the layer of an altitude chosen by the loop of the standard atmosphere (`Verif/Physics/ConstTempProps`) | the last layer that contains the altitude, laws of the exponential; counterexamples | partial |
| C326 | Constant Mach and constant dynamic pressure climbs at a constant angle | one evaluation for any unknown altitudes, spectral integration matrix (`Verif/Mission/AngleClimbProps`) | zero residuals imply the altitudes are those computed; properties of the integration matrix | partial |
| C327 | Initial state of a battery | optional inputs as options (`Verif/Mission/AngleClimbProps`) | case analysis; counterexamples | partial |
| C328 | Circulation shed into a rotor wake | corners of the panels as functions of start station, blade, radial station and time step (`Verif/Rotor/VortexWakeProps`) | periodicity of the angles, divisibility of stations, isometries; counterexamples | partial |
| C329 | Blades of the vortex wake | corners of the panels as functions of start station, blade, radial station and time step (`Verif/Rotor/VortexWakeProps`) | periodicity of the angles, divisibility of stations, isometries; counterexamples | proved |
| C330 | Drift of a rotor wake | corners of the panels as functions of start station, blade, radial station and time step (`Verif/Rotor/VortexWakeProps`) | periodicity of the angles, divisibility of stations, isometries; counterexamples | partial |
| C331 | Position and width of a rotor wake | corners of the panels as functions of start station, blade, radial station and time step (`Verif/Rotor/VortexWakeProps`) | periodicity of the angles, divisibility of stations, isometries; counterexamples | partial |
| C332 | Velocity induced by a segment of the wake | closed form of a segment and the kernel by components (`Verif/Rotor/VortexVelocityProps`) | the integral of Biot and Savart from the vortex lattice module, polynomial bounds in the squared distance in cores; counterexample by exact rational values | partial |
| C333 | The wake as a lattice of filaments | finite sums of rings over blades, stations and time steps (`Verif/Rotor/VortexVelocityProps`) | antisymmetry of a segment, regrouping of finite sums | proved |
| C334 | Induced velocity at the blades | interpolation between middles; the loop for any map and any measure of change (`Verif/Rotor/VortexVelocityProps`) | derivatives of the position of the blade, induction over turns; counterexamples | partial |
| C335 | Convergence of the wake shape | interpolation between middles; the loop for any map and any measure of change (`Verif/Rotor/VortexVelocityProps`) | derivatives of the position of the blade, induction over turns; counterexamples | partial |
| C336 | Wakes of identical rotors | arrays as names of buffers in a memory; lists of wings; tables over azimuth (`Verif/Rotor/VortexVelocityProps`) | induction over the arrays and the wings, floor of the position in the table; counterexamples | partial |
| C337 | Slipstream of a vortex wake over a wing | arrays as names of buffers in a memory; lists of wings; tables over azimuth (`Verif/Rotor/VortexVelocityProps`) | induction over the arrays and the wings, floor of the position in the table; counterexamples | partial |
| C338 | External inflow of a rotor | arrays as names of buffers in a memory; lists of wings; tables over azimuth (`Verif/Rotor/VortexVelocityProps`) | induction over the arrays and the wings, floor of the position in the table; counterexamples | partial |
| C339 | Design thrust and flow of a ducted fan | passes through the components of the gas turbine model, with the inputs of the thrust element kept between calls (`Verif/Energy/DuctedFanProps`) | lemma on sizing the thrust element, field arithmetic of the nozzle and free stream; counterexamples by exact values for a gas with ratio of specific heats two | partial |
| C340 | Power of a ducted fan | passes through the components of the gas turbine model, with the inputs of the thrust element kept between calls (`Verif/Energy/DuctedFanProps`) | lemma on sizing the thrust element, field arithmetic of the nozzle and free stream; counterexamples by exact values for a gas with ratio of specific heats two | partial |
| C341 | Calls of the engine sizing functions | the arguments as options; the chain of ratings over arbitrary component models (`Verif/Energy/DuctedFanProps`) | case analysis, inequalities over efficiencies; counterexamples | partial |
| C342 | Design thrust of turbojets and ramjets | passes through the components of the gas turbine model, with the inputs of the thrust element kept between calls (`Verif/Energy/DuctedFanProps`) | lemma on sizing the thrust element, field arithmetic of the nozzle and free stream; counterexamples by exact values for a gas with ratio of specific heats two | partial |
| C343 | Ratings of a superconducting drive with dynamos | the arguments as options; the chain of ratings over arbitrary component models (`Verif/Energy/DuctedFanProps`) | case analysis, inequalities over efficiencies; counterexamples | partial |
| C344 | State after converging a segment | a root finder as a sequence of trial points with the returned point; forces by components (`Verif/Mission/ConvergeProps`) | induction over the trials, linear arithmetic of rotations; counterexample | partial |
| C345 | Single point segments | a root finder as a sequence of trial points with the returned point; forces by components (`Verif/Mission/ConvergeProps`) | induction over the trials, linear arithmetic of rotations; counterexample | proved |
| C346 | Totals of the mission report | the printed numbers as functions of the segments and of the breakdown (`Verif/IO/ReportsProps`) | telescoping sums, Bernoulli inequalities for powers, calculus-free monotonicity; counterexamples | partial |
| C347 | Calibrated airspeed of the mission report | the printed numbers as functions of the segments and of the breakdown (`Verif/IO/ReportsProps`) | telescoping sums, Bernoulli inequalities for powers, calculus-free monotonicity; counterexamples | proved |
| C348 | Engine data report | the printed numbers as functions of the segments and of the breakdown (`Verif/IO/ReportsProps`) | telescoping sums, Bernoulli inequalities for powers, calculus-free monotonicity; counterexamples | partial |
| C349 | Parasite drag report | the printed numbers as functions of the segments and of the breakdown (`Verif/IO/ReportsProps`) | telescoping sums, Bernoulli inequalities for powers, calculus-free monotonicity; counterexamples | partial |
| C350 | Sum of noise levels at certification points | levels over the reals, settings as flags changed by each function, polyfit as any least squares cubic (`Verif/Noise/FlyoverProps`) | monotonicity of powers and logarithms, induction over calls, uniqueness of interpolation; counterexamples | proved |
| C351 | Microphones of the certification points | levels over the reals, settings as flags changed by each function, polyfit as any least squares cubic (`Verif/Noise/FlyoverProps`) | monotonicity of powers and logarithms, induction over calls, uniqueness of interpolation; counterexamples | partial |
| C352 | Sampling of the trajectory for certification noise | levels over the reals, settings as flags changed by each function, polyfit as any least squares cubic (`Verif/Noise/FlyoverProps`) | monotonicity of powers and logarithms, induction over calls, uniqueness of interpolation; counterexamples | partial |
| C353 | Geometry file for the mesher | lines of the key file to statements of the geometry file (`Verif/IO/ExternalProps`) | induction over the lines, permutations of filters; counterexample | partial |
| C354 | Coefficients from half and full meshes | the flow solver as an arbitrary function, surrogates as any interpolating model (`Verif/IO/ExternalProps`) | field arithmetic, rounding to printed digits, membership in tables; counterexamples | partial |
| C355 | Training tables of the flow solver | the flow solver as an arbitrary function, surrogates as any interpolating model (`Verif/IO/ExternalProps`) | field arithmetic, rounding to printed digits, membership in tables; counterexamples | partial |
| C356 | Stored wave drag | the file as a list of pairs kept between evaluations; the mass report as a list of lines (`Verif/IO/ExternalProps`) | invariant of the file over all evaluations, induction over the lines; counterexamples | partial |
| C357 | Fuel tank properties from OpenVSP | the file as a list of pairs kept between evaluations; the mass report as a list of lines (`Verif/IO/ExternalProps`) | invariant of the file over all evaluations, induction over the lines; counterexamples | partial |
| C358 | Tree of a vehicle as JSON | nested data and trees as mutual inductive types (`Verif/IO/ExternalProps`) | mutual induction, a reader that inverts the writer; counterexample | partial |
| C359 | Grid of points on a propeller disc | grids as lists of points, the wake as a function of a point, the cycler on top of the modelled battery (`Verif/Rotor/UpstreamProps`) | trigonometric identities, membership; counterexamples | proved |
| C360 | Rotor in the wake of another | grids as lists of points, the wake as a function of a point, the cycler on top of the modelled battery (`Verif/Rotor/UpstreamProps`) | trigonometric identities, membership; counterexamples | partial |
| C361 | Battery cell cycler | grids as lists of points, the wake as a function of a point, the cycler on top of the modelled battery (`Verif/Rotor/UpstreamProps`) | trigonometric identities, membership; counterexamples | proved |
| C362 | Mesh sources on wings | one pass of the loop over sections with the flag kept between wings; sources as a list (`Verif/Vsp/VehicleProps`) | uniform description by stations of the wing, induction over the panels; counterexamples | partial |
| C363 | Wetted areas read from OpenVSP | lines of the file, geometries and components as lists (`Verif/Vsp/VehicleProps`) | induction over lists, permutations; counterexamples | partial |
| C364 | Rotors read from OpenVSP | lines of the file, geometries and components as lists (`Verif/Vsp/VehicleProps`) | induction over lists, permutations; counterexamples | partial |
| C365 | Vehicle written to OpenVSP | lines of the file, geometries and components as lists (`Verif/Vsp/VehicleProps`) | induction over lists, permutations; counterexamples | partial |
| C366 | Mach slices | normal of the plane and place of a slice over the reals (`Verif/Vsp/VehicleProps`) | addition theorems, values at 30 degrees; counterexample | partial |
| C367 | Lift-to-drag ratio of the second segment | formulas over the reals, wings as a list (`Verif/Performance/EstimatesProps`) | monotonicity of the root and of fractions; counterexamples | partial |
| C368 | Table of a PyCycle engine | rows of the table as a list, arrays of points as lists (`Verif/Performance/EstimatesProps`) | induction over the conditions, permutations, chains; counterexamples | partial |
| C369 | Centre of gravity with fuel | formulas over the reals, wings as a list (`Verif/Performance/EstimatesProps`) | monotonicity of the root and of fractions; counterexamples | proved |
| C370 | Files of evaluation points | rows of the table as a list, arrays of points as lists (`Verif/Performance/EstimatesProps`) | induction over the conditions, permutations, chains; counterexamples | partial |
| C371 | Nacelles as drawn | stations as functions of their number, points over the reals, the index left by the inner loop (`Verif/IO/DrawingsProps`) | addition theorems, square roots; counterexamples | partial |
| C372 | Blades as drawn | stations as functions of their number, points over the reals, the index left by the inner loop (`Verif/IO/DrawingsProps`) | addition theorems, square roots; counterexamples | partial |
| C373 | Fuel used over a mission | curves as lists, the loop with what was used before (`Verif/IO/PlotsProps`) | induction over the segments; counterexample | partial |
| C374 | Incidence of tilting rotors | formulas over the reals with nan as none (`Verif/IO/PlotsProps`) | inverse trigonometric functions, order of fractions; counterexamples | partial |
| C375 | C-rates shown | formulas over the reals with nan as none (`Verif/IO/PlotsProps`) | inverse trigonometric functions, order of fractions; counterexamples | partial |
| C376 | Derivatives read from AVL | assignments in order on functions from line and column (`Verif/IO/TablesProps`) | evaluation for every number of control surfaces, arithmetic of lines; counterexample | partial |
| C377 | Airfoils written for AVL | lists of points, characters, items and wings (`Verif/IO/TablesProps`) | induction over lists, rounding; counterexamples | partial |
| C378 | Weight breakdown as printed | lists of points, characters, items and wings (`Verif/IO/TablesProps`) | induction over lists, rounding; counterexamples | partial |
| C379 | Compressibility drag as printed | lists of points, characters, items and wings (`Verif/IO/TablesProps`) | induction over lists, rounding; counterexamples | proved |
| C380 | Cell voltage within the measurements | measured curves as lists, the linear interpolation on the grid of three axes, limits applied to the arrays in place (`Verif/Energy/NmcCellProps`) | convex combinations, evaluation at the nodes; counterexample | proved |
| C381 | Reading the voltage changes nothing | measured curves as lists, the linear interpolation on the grid of three axes, limits applied to the arrays in place (`Verif/Energy/NmcCellProps`) | convex combinations, evaluation at the nodes; counterexample | partial |
| C382 | Charge through a cell | one segment with arbitrary integration and differentiation matrices, arrays as functions of the control point (`Verif/Energy/NmcCellProps`) | sums over the control points, signs of the polynomials; counterexamples | partial |
| C383 | Electrical state of an NMC pack | one segment with arbitrary integration and differentiation matrices, arrays as functions of the control point (`Verif/Energy/NmcCellProps`) | sums over the control points, signs of the polynomials; counterexamples | partial |
| C384 | Heat of an NMC cell | one segment with arbitrary integration and differentiation matrices, arrays as functions of the control point (`Verif/Energy/NmcCellProps`) | sums over the control points, signs of the polynomials; counterexamples | partial |
| C385 | Capacity of an aged battery | the energy left through a list of segments with and without recharge (`Verif/Energy/NmcCellProps`) | induction over the segments; counterexamples | partial |
| C386 | Points of a panel | the points of a panel as functions of strip and number, breaks from segments as a list (`Verif/Vlm/PanelsProps`) | affine functions of the chord and span, induction over segments; counterexamples | partial |
| C387 | Strips share their edges | the points of a panel as functions of strip and number, breaks from segments as a list (`Verif/Vlm/PanelsProps`) | affine functions of the chord and span, induction over segments; counterexamples | partial |
| C388 | Halves of a symmetric wing | the points of a panel as functions of strip and number, breaks from segments as a list (`Verif/Vlm/PanelsProps`) | affine functions of the chord and span, induction over segments; counterexamples | proved |
| C389 | Mirror image of a fin | reflected segments, breaks by linear interpolation, the wing made from a control surface with its own sweep and camber table (`Verif/Vlm/PanelsProps`) | induction over segments, scaling of the interpolation, tangent of the converted sweep; counterexamples | partial |
| C390 | Breaks for control surfaces | reflected segments, breaks by linear interpolation, the wing made from a control surface with its own sweep and camber table (`Verif/Vlm/PanelsProps`) | induction over segments, scaling of the interpolation, tangent of the converted sweep; counterexamples | proved |
| C391 | Control surfaces fill their cuts | reflected segments, breaks by linear interpolation, the wing made from a control surface with its own sweep and camber table (`Verif/Vlm/PanelsProps`) | induction over segments, scaling of the interpolation, tangent of the converted sweep; counterexamples | partial |
| C392 | Force derivatives from lift, drag and weight | formulas over the reals; lift and drag as differentiable functions (`Verif/Stability/ForceDerivProps`) | derivatives of products, the integral of the ellipse by its antiderivative; counterexample | partial |
| C393 | Books of the lattice agree | the arrays of the lattice as lists appended to by every wing and body, reduceat sums, boolean flags by panel (`Verif/Vlm/LayoutProps`) | induction over the surfaces of the vehicle with the invariants of the books | proved |
| C394 | Sums over strips and surfaces | the arrays of the lattice as lists appended to by every wing and body, reduceat sums, boolean flags by panel (`Verif/Vlm/LayoutProps`) | induction over the surfaces of the vehicle with the invariants of the books | proved |
| C395 | Values by strip | the arrays of the lattice as lists appended to by every wing and body, reduceat sums, boolean flags by panel (`Verif/Vlm/LayoutProps`) | induction over the surfaces of the vehicle with the invariants of the books | proved |
| C396 | Flat plate of a fuselage | cosine stations, slices from nose and tail curves, panels between slices, halves reflected (`Verif/Vlm/BodyProps`) | monotone cosine and power functions, telescoping; counterexamples | partial |
| C397 | Flat plates of nacelles | cosine stations, slices from nose and tail curves, panels between slices, halves reflected (`Verif/Vlm/BodyProps`) | monotone cosine and power functions, telescoping; counterexamples | partial |
| C398 | Copper leads | conductivity tables as points, leads of Verif/Energy/Cryo in scaled units (`Verif/Energy/CopperProps`) | algebra; the points at 300 K; counterexamples | partial |
| C399 | Old files before a run of AVL | files as a function from names to contents, purge loop over names (`Verif/IO/AvlRunProps`) | induction over the names; counterexamples | partial |
| C400 | Cuts for control surfaces | breaks of one edge as a list, the carrying loop (`Verif/Vlm/CutsProps`) | induction over the breaks; counterexample | partial |
| C401 | Derivative for the inflow of blades | the five summands of compute_dR_dpsi and the residual of Verif/Rotor/Blade with the lift of a thin airfoil (`Verif/Rotor/BladeDerivProps`) | differentiation by hand, four algebraic identities; counterexample | partial |
| C402 | Bending material of wings | big_integral in both branches with complex square roots as real cases, panels between segments (`Verif/Weights/BendingProps`) | fundamental theorem of calculus, additivity; counterexamples | partial |
| C403 | Plain wings in the lattice | completion of taper and chord, conversion of sweep, offsets (`Verif/Vlm/PlainWingProps`) | algebra of the trapezium; counterexample | partial |
| C404 | Copies of wings for the lattice | data as trees of named fields, deep_get and recursive_set along paths, checks on the copies (`Verif/Vlm/CopyWingsProps`) | induction over paths that are not prefixes of each other; counterexamples | proved |
| C405 | Wings the lattice cannot do | data as trees of named fields, deep_get and recursive_set along paths, checks on the copies (`Verif/Vlm/CopyWingsProps`) | induction over paths that are not prefixes of each other; counterexamples | partial |
| C406 | Failures of surrogates | surrogates as functions with values that may be no numbers (`Verif/Optim/SurrogateFailProps`) | case distinction; counterexample | partial |
| C407 | Unknowns of electric networks | names and numbers of unknowns and residuals, added and deleted one by one (`Verif/Energy/WiringProps`) | sums for any number of rotors and points; counterexamples | partial |
| C408 | Leading edge of a rotating aircraft | first panel of a strip with its arms (`Verif/Vlm/EdgeProps`) | algebra | proved |
| C409 | Cruise and rough air gusts in the V-n diagram | gust_loads on lists with insertions by index, larger root of the quadratic (`Verif/Performance/GustProps`) | list equations; roots of quadratics; counterexamples | partial |
| C410 | Dive gusts in the V-n diagram | gust_loads on lists with insertions by index, larger root of the quadratic (`Verif/Performance/GustProps`) | list equations; roots of quadratics; counterexamples | proved |
| C411 | Stations of the detailed FLOPS wing | stations, stored sweeps, search loops and cumulative sums over any number of stations (`Verif/Weights/FlopsWingProps`) | induction over stations, integrals of cubics; counterexamples | partial |
| C412 | Loads of the detailed FLOPS wing | stations, stored sweeps, search loops and cumulative sums over any number of stations (`Verif/Weights/FlopsWingProps`) | induction over stations, integrals of cubics; counterexamples | partial |
| C413 | Zero lift and slope of a measured polar | arrays as functions of the index, searches as recursive functions (`Verif/Airfoil/ExtendedProps`) | induction over the searches; counterexamples | partial |
| C414 | Measured data inside an extended polar | arrays as functions of the index, searches as recursive functions (`Verif/Airfoil/ExtendedProps`) | induction over the searches; counterexamples | partial |
| C415 | Raymer's fuselage, horizontal tail, gear and nacelles | the correlations with powers of negative numbers as no number (`Verif/Weights/RaymerProps`) | power laws; counterexamples | partial |
| C416 | Orientation angles of rotors and nacelles | Rodrigues rotation matrices (`Verif/Rotor/OrientationProps`) | matrix algebra from three identities of sine and cosine; counterexamples | partial |
| C417 | Gust lines of the V-n diagram | the list of gust load factors and the points drawn from it (`Verif/Performance/GustProps`) | evaluation of the indices, line equation | proved |
| C418 | What the trust region compares | which of the two models is evaluated where, and the ratio formed from it (`Verif/Optim/CompareProps`) | unfolding the corrected model at the centre and at the step; counterexamples | partial |
| C419 | Segments and airfoils attached to parts | the ways of appending over the nested dictionary of C05 (`Verif/Core/AttachProps`) | case analysis of the append; evaluation of the counterexamples | partial |
| C420 | Mind maps of data | nested data and nodes as mutual inductive types (`Verif/IO/FreeMindProps`) | mutual induction in both directions | partial |
| C421 | Raymer's items of the systems | the nine correlations in pounds (`Verif/Weights/RaymerItemsProps`) | monotonicity of powers; counterexamples | partial |
| C422 | The folder of an AVL run | folders as lists of file names (`Verif/IO/AvlFolderProps`) | induction over the Mach numbers; counterexamples | partial |
| C423 | Saving the evolution of a wake | the loop over frames with the state of the rotor (`Verif/IO/WakeFramesProps`) | induction over the frames | partial |
| C424 | Control surfaces of trimmed aircraft in AVL | the run case lines and the deck commands as what fixes a surface (`Verif/Avl/TrimProps`) | case analysis of the kinds; counterexample | partial |
| C425 | Exit of a nozzle with a shock inside | the function given to the root finder (`Verif/Physics/ExitShockProps`) | strict monotonicity and the intermediate value theorem; algebra of powers | proved |
| C426 | Properties of air | the formulas of one temperature (`Verif/Physics/AirGasProps`) | positive combinations of products of the distances to the ends of the range; tangent bounds of the square root | proved |
| C427 | Processes for each part | the loop over the parts around that of a process (`Verif/Mission/PartProcessProps`) | induction over the parts with the refinement of C32 | proved |
| C428 | Values as columns and rows | arrays as shape and entries (`Verif/Core/TwoDimProps`) | case analysis; induction over the rows | partial |
| C429 | Carpet of the expected improvement | the two loops over the grid with what is stored and printed (`Verif/Optim/CarpetProps`) | induction over the visited points | partial |
| C430 | The geometry file of AVL | the file as a list of keywords with values (`Verif/Avl/FileProps`) | a reader from the end of the file undoes the writer, by induction over surfaces and sections; properties of insertion sort | proved |
| C431 | Properties of steam | the formulas of one temperature (`Verif/Physics/SteamGasProps`) | factoring the difference of the fit; numerals | partial |
| C432 | Several elements added at once | the three kinds of argument over the model of Data.update (`Verif/Core/ExtendProps`) | induction over the given dictionary | partial |
| C433 | Batteries that gain mass | the products of power or energy with the factors (`Verif/Energy/MetalAirProps`) | linearity of the integral; numerals | proved |
| C434 | Noise reports | columns as lists with the headings above them, numbers rounded to their decimals; the variable left by the loop (`Verif/Noise/ReportProps`) | induction over columns and steps; monotone rounding; bounds of sums of levels; counterexamples | partial |
| C435 | Weighted levels of jet aircraft | columns as lists with the headings above them, numbers rounded to their decimals; the variable left by the loop (`Verif/Noise/WeightedProps`) | induction over columns and steps; monotone rounding; bounds of sums of levels; counterexamples | partial |
| C436 | Sections of exported fuselages | sections as a numbered family with cut, insert and a move that stops at the neighbours (`Verif/Vsp/FuselageExportProps`) | invariant of the bunched sections, induction from the tail forward; counterexamples | partial |
| C437 | Problems posed to SNOPT | lists of edges and names indexed by row, intervals of extended reals (`Verif/Optim/SnoptProps`) | induction over the rows with the rows already posed as prefix; counterexamples | partial |
| C438 | Panels of the mission plots | panels as label and function of the conditions (`Verif/IO/MissionPanelsProps`) | for every panel, the unit cancels; square of the root; counterexamples | partial |
| C439 | Start of the turbulent layer | real powers, with infinite and undefined results as values of their own (`Verif/Airfoil/HeadStartProps`) | broken powers compared through whole powers, concavity and the tangent of the logarithm; counterexample at 1.1 | partial |
| C440 | Every panel of a section gets its own boundary layer | panels as numbers, masks as predicates, lists filtered and reversed (`Verif/Airfoil/SurfacesProps`) | filters of ranges, lists without their first places; counterexamples | partial |
| C441 | Header and airfoils of an exported propeller | file as header, rows and blocks; rounding half to even; rotations of C416 (`Verif/Vsp/BemProps`) | lists read position by position, a rounded interpolation is a mean of rounded values, products of rotations; counterexample for toed rotors | partial |
| C442 | Each surrogate learns its own values | regression objects in a store, handed round by number; what is learnt is an arbitrary function of the data (`Verif/Optim/SurrogateFitProps`) | induction over the constraints: later models are new objects, earlier ones are kept | proved |
| C443 | Cells supplied with the code | data of a cell as functions of size, mass, voltages, capacity and resistance; pack of C238 (`Verif/Energy/CellsProps`) | field algebra; the power of a source behind a resistance by completing the square; counterexample | partial |
| C444 | Voltage and heat of a lithium ion battery | `energy_calc` of C36 (`Verif/Energy/BatteryVoltageProps`) | bounds of the fits by products of non-negative terms, monotone exponential, cases on the sign of the current; counterexample for packs | partial |
| C445 | One operating point of a propeller | `single` (Rotor/Single.lean) runs a rotor with arbitrary blade loads through the reports and rotations of `Rotor.spin` (`Verif/Rotor/SingleProps`) | the identity of power between frames (C185) gives the efficiency for all orientations; induction over calls for what they leave behind; a lift rotor is a counterexample | partial |
| C446 | One analysis of each kind | classes as chains of inheritance above nine base classes, entries as a function of the kind (Mission/VehicleAnalyses.lean) (`Verif/Mission/VehicleAnalysesProps`) | a separate inductive relation says which kind a class is of; induction over chains and over the appended analyses | partial |
| C447 | Panels about rotors and ageing | limits of axes, length of the thrust vector, marks of the ageing panels and closing of a ring (IO/RotorPanels.lean) (`Verif/IO/RotorPanelsProps`) | inequalities for limits, Pythagoras for the thrust, counterexamples for negative values, reversed thrust and labels | partial |
| C448 | Levels of a set of rotors | the two totals of each band and the sums over rotors and bands, nan as `none` (Noise/RotorTotals.lean) (`Verif/Noise/RotorTotalsProps`) | energies of levels as a separate spec; a lemma that a sum of levels carries the sum of the energies, used twice; missing bands as counterexamples | partial |
| C449 | Noise report of a propeller | the numbers of the report in order, `none` for an exception (Noise/PropReport.lean) (`Verif/Noise/PropReportProps`) | headings interpreted by a separate table; rounding to the second decimal; the column Mach as counterexample | partial |
| C450 | Preparing a mission solved all at once | segments with their number of points, state, first step and the position of the segment they start from (Mission/AllAtOnce.lean) (`Verif/Mission/AllAtOnceProps`) | induction over the list of segments; a second preparation, with any states in between, is the identity | partial |
| C451 | Surfaces in the pressure figures | the flags of the surfaces and the loop that clears them, `none` for an index error (IO/FlightFigures.lean) (`Verif/IO/FlightFiguresProps`) | induction over the wings with the flags already settled as a prefix; two fins as counterexample | partial |
| C452 | Frames of a film of a mission | the double loop over segments and points with the history collected for each frame (IO/FlightFigures.lean) (`Verif/IO/FlightFiguresProps`) | induction over segments from the end: histories are the prefixes of the flight | partial |
| C453 | Lines of the lift distribution | slices of stations and lift by running sums, styles from a list of five (IO/FlightFigures.lean) (`Verif/IO/FlightFiguresProps`) | slices by running sums join to the whole list; the sixth style does not exist | partial |
| C454 | Loudest level in the noise figures | the table of levels with the number of points of the first segment, zeros for charging segments (Noise/Figures.lean) (`Verif/Noise/FiguresProps`) | the table is the list of all levels when sizes agree, of which the maximum is taken; counterexamples for other sizes and charging | partial |
| C455 | Places in the noise figures | places drawn for microphones, aircraft and the five surfaces of a building cut out of all microphones (Noise/Figures.lean) (`Verif/Noise/FiguresProps`) | slices at running sums give back the sides of each building (built on the model of C124); scales by comparison | partial |
| C456 | Map of centres of gravity | rows with the empty vehicle added, units of the axes and scaling of the lines (Vehicle/CgMap.lean) (`Verif/Vehicle/CgMapProps`) | balance of moments as spec, monotone in the position of the fuel; units named at the axes interpreted by a separate table | proved |
| C457 | Arrows of airfoil forces | arrows from normals and pressures, windows by rounded names (Airfoil/Figures.lean) (`Verif/Airfoil/FiguresProps`) | force vector and point of contact as spec, by the sign of the pressure; rounding separates numbers more than one apart; counterexamples for midpoints and close cases | partial |
| C458 | Figures of airfoil polars | lines of both figures of polars, grid switched once per polar (Airfoil/Figures.lean) (`Verif/Airfoil/FiguresProps`) | lists of points mapped back to the stored polars; radians equal degrees only at zero; parity of the number of polars | partial |
| C459 | Derivatives of every control surface | the loop over wings and control surfaces writing into one dictionary, differences of propellers by key (Stability/SurfaceDerivatives.lean) (`Verif/Stability/SurfaceDerivativesProps`) | nested loops are one loop over all surfaces; the last write of a key stays; affine coefficients as spec; counterexamples for equal keys and surrogates | partial |
| C460 | Compositions add to one | dictionaries with defaults of the general class first, and the check (Physics/Compositions.lean) (`Verif/Physics/CompositionsProps`) | sum of a dictionary after a write; induction over the writes; counterexample for every gas with names of its own | partial |
| C461 | Data of propellants agree | the tables of the propellants (Physics/Compositions.lean) (`Verif/Physics/CompositionsProps`) | arithmetic for an arbitrary volume | partial |
| C462 | Lift of the aerodynamic analyses | dictionaries of the lifts of wings by tag and by key, correction of the fuselage, reads of the drag steps (Aero/LiftChain.lean) (`Verif/Aero/LiftChainProps`) | folds of dictionary writes; training succeeds for tags that are their own keys; counterexamples for the rest | partial |
| C463 | Supplied aerodynamic analyses have all their steps | lists of assignments of the defaults carried out up to the first name that does not exist; settings read at initialisation (Aero/Steps.lean) (`Verif/Aero/StepsProps`) | induction over the list for any packages; the lists of the analyses by evaluation | partial |
| C464 | Settings of the aerodynamic analyses | settings read by every step, and evaluation up to the first that is missing (Aero/Steps.lean) (`Verif/Aero/StepsProps`) | induction over the steps: through if and only if everything read is there; lists of the analyses by evaluation, for any settings added | partial |
| C465 | Parameters of segments | table of parameters and reads of all kinds of segments, and initialisation from arbitrary values (Mission/SegmentParameters.lean) (`Verif/Mission/SegmentParametersProps`) | reads are parameters, by evaluation of the table; then for any values and added attributes by induction over the reads | partial |
| C466 | Shaft power off-takes of a turbofan | off-takes by name, appended under the translated tag or assigned, and the one looked up in a pass (Energy/AppendedOffTake.lean) (`Verif/Energy/AppendedOffTakeProps`) | no capital survives translation, induction over the appends; a sized engine that keeps its whole thrust as witness | partial |
| C467 | Materials given to components in the buildup of weights | attribute paths with materials, and the materials of wings, blades and fuselages picked from them with their defaults (Weights/Materials.lean) (`Verif/Weights/MaterialsProps`) | lookup below one attribute by induction over any list given; ribs and webs independent of the list; direct attributes as the converse | partial |
| C468 | Height of shear webs in the buildup of weights | outline of a section, numpy interpolation with its guards, heights of webs of wings and blades (Weights/WebHeight.lean) (`Verif/Weights/WebHeightProps`) | the upper side runs forward, so the guard returns its last value; interpolation at a station of an increasing table by induction; the section used as witness | partial |
| C469 | Torsion box of a wing in the buildup of weights | corners of the box, shoelace formula and length of the path along the corners (Weights/TorsionBox.lean) (`Verif/Weights/TorsionBoxProps`) | induction over the stations: contributions of both sides agree, area equals the sum of trapezia, length equals both sides and the front web | partial |
| C470 | Solids of the library in the buildup of weights | table of the library of solids and of the properties read for every role (Weights/Solids.lean) (`Verif/Weights/SolidsProps`) | available exactly if nothing read is missing, by induction; the table by cases, for any width added by a user | partial |
| C471 | Pressures of the wings of a vehicle that is saved | pressures as scalar, row or matrix with indexing that may raise, saving of a wing and loop over the wings (IO/SavedPressures.lean) (`Verif/IO/SavedPressuresProps`) | induction over the wings; a wing that is not symmetric takes away one dimension, and slicing a scalar raises | partial |

## What is modelled

Every Lean module below models the Python files listed beside it; line ranges and
simplifications are in the comments of the definitions and of the module.

| Module | Definitions | Python files cited |
|----|----|----|
| `Verif/Aero/Aerodas` | 19 | `Methods/Aerodynamics/AERODAS/AERODAS_setup.py`, `Methods/Aerodynamics/AERODAS/finite_aspect_ratio.py`, `Methods/Aerodynamics/AERODAS/post_stall_coefficients.py`, `Methods/Aerodynamics/AERODAS/pre_stall_coefficients.py`, `Methods/Aerodynamics/AERODAS/section_properties.py` |
| `Verif/Aero/Compress` | 19 | `Methods/Aerodynamics/Common/Fidelity_Zero/Drag/compressibility_drag_wing.py`, `Methods/Aerodynamics/Common/Fidelity_Zero/Drag/compressibility_drag_wing_total.py`, `Methods/Aerodynamics/Common/Fidelity_Zero/Helper_Functions/wave_drag_lift.py`, `Methods/Aerodynamics/Supersonic_Zero/Drag/compressibility_drag_total.py`, `Methods/Aerodynamics/Supersonic_Zero/Drag/wave_drag_lift.py`, `Methods/Aerodynamics/Supersonic_Zero/Drag/wave_drag_volume_raymer.py`, `Methods/Aerodynamics/Supersonic_Zero/Drag/wave_drag_volume_sears_haack.py` |
| `Verif/Aero/Drag` | 25 | `Analyses/Aerodynamics/Fidelity_Zero.py`, `Methods/Aerodynamics/Common/Fidelity_Zero/Drag/induced_drag_aircraft.py`, `Methods/Aerodynamics/Common/Fidelity_Zero/Drag/miscellaneous_drag_aircraft_ESDU.py`, `Methods/Aerodynamics/Common/Fidelity_Zero/Drag/parasite_drag_pylon.py`, `Methods/Aerodynamics/Common/Fidelity_Zero/Drag/parasite_drag_wing.py`, `Methods/Aerodynamics/Common/Fidelity_Zero/Drag/parasite_total.py`, `Methods/Aerodynamics/Common/Fidelity_Zero/Drag/total_aircraft.py`, `Methods/Aerodynamics/Common/Fidelity_Zero/Drag/trim.py`, `Methods/Aerodynamics/Common/Fidelity_Zero/Drag/untrimmed.py`, `Methods/Aerodynamics/Common/Fidelity_Zero/Helper_Functions/windmilling_drag.py`, `Methods/Aerodynamics/Supersonic_Zero/Drag/miscellaneous_drag_aircraft.py` |
| `Verif/Aero/Friction` | 7 | `Methods/Aerodynamics/Common/Fidelity_Zero/Helper_Functions/compressible_mixed_flat_plate.py`, `Methods/Aerodynamics/Common/Fidelity_Zero/Helper_Functions/compressible_turbulent_flat_plate.py` |
| `Verif/Aero/HighLift` | 10 | `Methods/Aerodynamics/Fidelity_Zero/Lift/compute_flap_lift.py`, `Methods/Aerodynamics/Fidelity_Zero/Lift/compute_max_lift_coeff.py`, `Methods/Aerodynamics/Fidelity_Zero/Lift/compute_slat_lift.py` |
| `Verif/Aero/LiftChain` | 19 | `Analyses/Aerodynamics/AVL_Inviscid.py`, `Analyses/Aerodynamics/SU2_inviscid.py`, `Analyses/Aerodynamics/SU2_inviscid_Super.py`, `Analyses/Aerodynamics/Vortex_Lattice.py`, `Core/Data.py`, `Methods/Aerodynamics/Common/Fidelity_Zero/Drag/compressibility_drag_wing.py`, `Methods/Aerodynamics/Common/Fidelity_Zero/Drag/induced_drag_aircraft.py`, `Methods/Aerodynamics/Common/Fidelity_Zero/Lift/aircraft_total.py`, `Methods/Aerodynamics/Common/Fidelity_Zero/Lift/fuselage_correction.py` |
| `Verif/Aero/LiftingLine` | 22 | `Analyses/Aerodynamics/Lifting_Line.py`, `Methods/Aerodynamics/Lifting_Line/Lifting_Line.py` |
| `Verif/Aero/Parasite` | 16 | `Methods/Aerodynamics/Common/Fidelity_Zero/Drag/parasite_drag_wing.py` |
| `Verif/Aero/Steps` | 21 | `Analyses/Aerodynamics/AVL.py`, `Analyses/Aerodynamics/Fidelity_Zero.py`, `Analyses/Aerodynamics/SU2_Euler.py`, `Analyses/Aerodynamics/SU2_Euler_Super.py`, `Analyses/Aerodynamics/Supersonic_OpenVSP_Wave_Drag.py`, `Analyses/Aerodynamics/Supersonic_Zero.py`, `Analyses/Aerodynamics/Vortex_Lattice.py`, `Core/Data.py`, `Methods/Aerodynamics/Common/Fidelity_Zero/Drag/__init__.py`, `Methods/Aerodynamics/Common/Fidelity_Zero/Drag/induced_drag_aircraft.py`, `Methods/Aerodynamics/Common/Fidelity_Zero/Drag/parasite_drag_wing.py`, `Methods/Aerodynamics/Common/Fidelity_Zero/Drag/spoiler_drag.py`, `Methods/Aerodynamics/Common/Fidelity_Zero/Drag/total_aircraft.py`, `Methods/Aerodynamics/Common/Fidelity_Zero/Drag/trim.py`, `Methods/Aerodynamics/Common/Fidelity_Zero/Lift/fuselage_correction.py`, `Methods/Aerodynamics/OpenVSP_Wave_Drag/__init__.py`, `Methods/Aerodynamics/Supersonic_Zero/Drag/__init__.py` |
| `Verif/Aero/Supersonic` | 19 | `Methods/Aerodynamics/Common/Fidelity_Zero/Lift/compute_wing_wake.py`, `Methods/Aerodynamics/Common/Fidelity_Zero/Lift/generate_wing_wake_grid.py`, `Methods/Aerodynamics/Supersonic_Zero/Drag/wave_drag_volume_raymer.py`, `Methods/Aerodynamics/Supersonic_Zero/Drag/wave_drag_volume_sears_haack.py`, `Methods/Noise/Boom/lift_equivalent_area.py` |
| `Verif/Airfoil/BoundaryLayer` | 17 | `Methods/Aerodynamics/Airfoil_Panel_Method/airfoil_analysis.py`, `Methods/Aerodynamics/Airfoil_Panel_Method/heads_method.py`, `Methods/Aerodynamics/Airfoil_Panel_Method/thwaites_method.py` |
| `Verif/Airfoil/Coordinates` | 17 | `Methods/Geometry/Two_Dimensional/Cross_Section/Airfoil/import_airfoil_geometry.py` |
| `Verif/Airfoil/Extended` | 8 | `Methods/Geometry/Two_Dimensional/Cross_Section/Airfoil/compute_airfoil_properties.py` |
| `Verif/Airfoil/Figures` | 13 | `Methods/Aerodynamics/Airfoil_Panel_Method/airfoil_analysis.py`, `Methods/Aerodynamics/Airfoil_Panel_Method/hess_smith.py`, `Methods/Geometry/Two_Dimensional/Cross_Section/Airfoil/compute_airfoil_properties.py`, `Plots/Performance/Airfoil_Plots.py` |
| `Verif/Airfoil/Files` | 37 | `Methods/Geometry/Two_Dimensional/Cross_Section/Airfoil/convert_airfoil_to_meshgrid.py`, `Methods/Geometry/Two_Dimensional/Cross_Section/Airfoil/import_airfoil_dat.py`, `Methods/Geometry/Two_Dimensional/Cross_Section/Airfoil/import_airfoil_polars.py` |
| `Verif/Airfoil/HeadStart` | 3 | `Methods/Aerodynamics/Airfoil_Panel_Method/heads_method.py` |
| `Verif/Airfoil/Naca` | 12 | `Methods/Geometry/Two_Dimensional/Cross_Section/Airfoil/compute_airfoil_properties.py`, `Methods/Geometry/Two_Dimensional/Cross_Section/Airfoil/compute_naca_4series.py` |
| `Verif/Airfoil/Panel` | 24 | `Methods/Aerodynamics/Airfoil_Panel_Method/aero_coeff.py`, `Methods/Aerodynamics/Airfoil_Panel_Method/hess_smith.py`, `Methods/Aerodynamics/Airfoil_Panel_Method/infl_coeff.py`, `Methods/Aerodynamics/Airfoil_Panel_Method/panel_geometry.py`, `Methods/Aerodynamics/Airfoil_Panel_Method/velocity_distribution.py` |
| `Verif/Airfoil/Surfaces` | 6 | `Methods/Aerodynamics/Airfoil_Panel_Method/airfoil_analysis.py` |
| `Verif/Airfoil/Transition` | 8 | `Methods/Geometry/Two_Dimensional/Cross_Section/Airfoil/generate_interpolated_airfoils.py`, `Methods/Geometry/Two_Dimensional/Cross_Section/Airfoil/import_airfoil_geometry.py` |
| `Verif/Avl/Deck` | 18 | `Analyses/Aerodynamics/AVL_Inviscid.py`, `Analyses/Stability/AVL.py`, `Methods/Aerodynamics/AVL/Data/Cases.py`, `Methods/Aerodynamics/AVL/translate_data.py`, `Methods/Aerodynamics/AVL/write_input_deck.py`, `Methods/Aerodynamics/AVL/write_mass_file.py`, `Methods/Aerodynamics/AVL/write_run_cases.py` |
| `Verif/Avl/File` | 17 | `Methods/Aerodynamics/AVL/Data/Body.py`, `Methods/Aerodynamics/AVL/Data/Wing.py`, `Methods/Aerodynamics/AVL/create_avl_datastructure.py`, `Methods/Aerodynamics/AVL/write_geometry.py` |
| `Verif/Avl/Geometry` | 33 | `Methods/Aerodynamics/AVL/Data/Wing.py`, `Methods/Aerodynamics/AVL/create_avl_datastructure.py`, `Methods/Aerodynamics/AVL/write_geometry.py` |
| `Verif/Avl/Trim` | 5 | `Methods/Aerodynamics/AVL/write_input_deck.py`, `Methods/Aerodynamics/AVL/write_run_cases.py` |
| `Verif/Core/Attach` | 5 | `Components/Energy/Converters/Rotor.py`, `Components/Fuselages/Fuselage.py`, `Components/Nacelles/Nacelle.py`, `Components/Wings/Main_Wing.py`, `Components/Wings/Segment.py`, `Components/Wings/Wing.py`, `Core/DataOrdered.py` |
| `Verif/Core/Extend` | 3 | `Core/Container.py`, `Core/ContainerOrdered.py` |
| `Verif/Core/Model` | 44 | `Core/Container.py`, `Core/Data.py` |
| `Verif/Core/TwoDim` | 7 | `Core/Arrays.py` |
| `Verif/Costs/Industrial` | 35 | `Methods/Costs/Correlations/Industrial_Costs/compute_industrial_costs.py`, `Methods/Costs/Correlations/Industrial_Costs/distribute_non_recurring_cost.py`, `Methods/Costs/Correlations/Industrial_Costs/estimate_escalation_factor.py`, `Methods/Costs/Correlations/Industrial_Costs/estimate_hourly_rates.py` |
| `Verif/Diffed/Model` | 10 | `Core/Diffed_Data.py` |
| `Verif/Energy/AppendedOffTake` | 7 | `Components/Energy/Networks/Turbofan.py`, `Core/Data.py`, `Methods/Propulsion/turbofan_sizing.py` |
| `Verif/Energy/Battery` | 16 | `Components/Energy/Storages/Batteries/Constant_Mass/Lithium_Ion.py`, `Components/Energy/Storages/Batteries/Constant_Mass/Lithium_Ion_LiNiMnCoO2_18650.py`, `Methods/Power/Battery/Cell_Cycle_Models/LiNiMnCoO2_cell_cycle_model.py`, `Methods/Power/Battery/compute_net_generated_battery_heat.py` |
| `Verif/Energy/Cells` | 5 | `Components/Energy/Storages/Batteries/Constant_Mass/Lithium_Ion_LiFePO4_18650.py`, `Components/Energy/Storages/Batteries/Constant_Mass/Lithium_Ion_LiNiMnCoO2_18650.py`, `Methods/Power/Battery/Sizing/initialize_from_circuit_configuration.py` |
| `Verif/Energy/Copper` | 7 | `Attributes/Solids/Copper.py`, `Methods/Cryogenics/Leads/lead_calculations.py` |
| `Verif/Energy/Cryo` | 34 | `Attributes/Cryogens/Liquid_H2.py`, `Components/Energy/Converters/Motor_HTS_Rotor.py`, `Components/Energy/Converters/Turboelectric.py`, `Components/Energy/Distributors/Cryogenic_Lead.py`, `Components/Energy/Distributors/HTS_DC_Dynamo_Basic.py`, `Components/Energy/Distributors/HTS_DC_Supply.py`, `Components/Energy/Distributors/HTS_Dynamo_Supply.py`, `Components/Energy/Networks/Turboelectric_HTS_Ducted_Fan.py`, `Components/Energy/Networks/Turboelectric_HTS_Dynamo_Ducted_Fan.py`, `Methods/Cryogenics/Cryocooler/cryocooler_model.py`, `Methods/Cryogenics/Dynamo/dynamo_efficiency.py`, `Methods/Cryogenics/Leads/lead_calculations.py`, `Methods/Power/Turboelectric/Discharge/zero_fidelity.py`, `Methods/Power/Turboelectric/Sizing/initialize_from_power.py`, `Methods/Propulsion/serial_HTS_turboelectric_sizing.py`, `Methods/Weights/Cooling/Cryogen/Consumption/Coolant_use.py` |
| `Verif/Energy/Deck` | 19 | `Components/Energy/Networks/Network.py`, `Components/Energy/Networks/Propulsor_Surrogate.py`, `Methods/Propulsion/electric_motor_sizing.py`, `Methods/Propulsion/turbofan_emission_index.py` |
| `Verif/Energy/DuctedFan` | 25 | `Components/Energy/Networks/Ducted_Fan.py`, `Components/Energy/Networks/Ramjet.py`, `Components/Energy/Networks/Turbojet_Super.py`, `Components/Energy/Processes/Thrust.py`, `Methods/Propulsion/ducted_fan_sizing.py`, `Methods/Propulsion/ramjet_sizing.py`, `Methods/Propulsion/serial_HTS_dynamo_turboelectric_sizing.py`, `Methods/Propulsion/turbojet_sizing.py` |
| `Verif/Energy/Electric` | 48 | `Components/Energy/Converters/Gearbox.py`, `Components/Energy/Converters/Generator_Zero_Fid.py`, `Components/Energy/Converters/Motor.py`, `Components/Energy/Converters/Motor_Lo_Fid.py`, `Components/Energy/Converters/Propeller_Lo_Fid.py`, `Components/Energy/Converters/Solar_Panel.py`, `Components/Energy/Distributors/Electronic_Speed_Controller.py`, `Components/Energy/Distributors/Solar_Logic.py`, `Components/Energy/Networks/Battery_Ducted_Fan.py`, `Components/Energy/Networks/Battery_Propeller.py`, `Components/Energy/Networks/Lift_Cruise.py`, `Components/Energy/Networks/Serial_Hybrid_Ducted_Fan.py`, `Components/Energy/Networks/Solar.py`, `Components/Energy/Networks/Solar_Low_Fidelity.py`, `Methods/Power/Battery/pack_battery_conditions.py` |
| `Verif/Energy/GasTurbine` | 44 | `Components/Energy/Converters/Combustor.py`, `Components/Energy/Converters/Compression_Nozzle.py`, `Components/Energy/Converters/Compressor.py`, `Components/Energy/Converters/Expansion_Nozzle.py`, `Components/Energy/Converters/Fan.py`, `Components/Energy/Converters/Ram.py`, `Components/Energy/Converters/Shaft_Power_Off_Take.py`, `Components/Energy/Converters/Turbine.py`, `Components/Energy/Networks/Turbofan.py`, `Components/Energy/Networks/Turbojet_Super.py`, `Components/Energy/Processes/Thrust.py`, `Methods/Propulsion/fm_id.py`, `Methods/Propulsion/turbofan_sizing.py` |
| `Verif/Energy/MetalAir` | 7 | `Components/Energy/Storages/Batteries/Variable_Mass/Aluminum_Air.py`, `Methods/Power/Battery/Variable_Mass/find_mass_gain_rate.py`, `Methods/Power/Battery/Variable_Mass/find_total_mass_gain.py` |
| `Verif/Energy/NmcCell` | 23 | `Components/Energy/Networks/Battery_Propeller.py`, `Components/Energy/Storages/Batteries/Constant_Mass/Lithium_Ion.py`, `Components/Energy/Storages/Batteries/Constant_Mass/Lithium_Ion_LiNiMnCoO2_18650.py`, `Methods/Missions/Segments/Common/Energy.py`, `Methods/Power/Battery/Cell_Cycle_Models/LiNiMnCoO2_cell_cycle_model.py` |
| `Verif/Energy/Piston` | 22 | `Components/Energy/Converters/Internal_Combustion_Engine.py`, `Components/Energy/Networks/Internal_Combustion_Propeller.py`, `Components/Energy/Networks/Internal_Combustion_Propeller_Constant_Speed.py` |
| `Verif/Energy/Rocket` | 12 | `Components/Energy/Converters/Rocket_Combustor.py`, `Components/Energy/Converters/de_Laval_Nozzle.py`, `Components/Energy/Networks/Liquid_Rocket.py`, `Components/Energy/Processes/Rocket_Thrust.py`, `Methods/Propulsion/liquid_rocket_sizing.py` |
| `Verif/Energy/Scramjet` | 22 | `Components/Energy/Converters/Combustor.py`, `Components/Energy/Converters/Supersonic_Nozzle.py`, `Components/Energy/Networks/Scramjet.py`, `Components/Energy/Processes/Thrust.py`, `Methods/Propulsion/nozzle_calculations.py`, `Methods/Propulsion/scramjet_sizing.py` |
| `Verif/Energy/Sizing` | 14 | `Methods/Power/Battery/Ragone/__init__.py`, `Methods/Power/Battery/Ragone/find_ragone_optimum.py`, `Methods/Power/Battery/Ragone/find_ragone_properties.py`, `Methods/Power/Battery/Ragone/find_specific_power.py`, `Methods/Power/Battery/Sizing/__init__.py`, `Methods/Power/Battery/Sizing/initialize_from_circuit_configuration.py`, `Methods/Power/Battery/Sizing/initialize_from_energy_and_power.py`, `Methods/Power/Battery/Sizing/initialize_from_mass.py`, `Methods/Power/Fuel_Cell/Discharge/find_power_diff_larminie.py`, `Methods/Power/Fuel_Cell/Discharge/find_power_larminie.py`, `Methods/Power/Fuel_Cell/Discharge/find_voltage_larminie.py`, `Methods/Power/Fuel_Cell/Discharge/larminie.py`, `Methods/Power/Fuel_Cell/Discharge/setup_larminie.py`, `Methods/Power/Fuel_Cell/Sizing/initialize_larminie_from_power.py` |
| `Verif/Energy/Sun` | 17 | `Attributes/Planets/Earth.py`, `Components/Energy/Processes/Solar_Radiation.py` |
| `Verif/Energy/Wiring` | 18 | `Components/Energy/Networks/Battery_Propeller.py`, `Components/Energy/Networks/Lift_Cruise.py`, `Components/Energy/Storages/Batteries/Constant_Mass/Lithium_Ion.py`, `Components/Energy/Storages/Batteries/Constant_Mass/Lithium_Ion_LiNiMnCoO2_18650.py`, `Methods/Missions/Segments/Cruise/Common.py`, `Methods/Missions/Segments/Hover/Common.py` |
| `Verif/Geometry/Layout` | 20 | `Methods/Geometry/Two_Dimensional/Planform/fuselage_planform.py`, `Methods/Geometry/Two_Dimensional/Planform/populate_control_sections.py`, `Methods/Geometry/Two_Dimensional/Planform/rescale_non_dimensional.py` |
| `Verif/Geometry/Planform` | 21 | `Methods/Geometry/Two_Dimensional/Planform/wing_planform.py`, `Methods/Geometry/Two_Dimensional/Planform/wing_segmented_planform.py` |
| `Verif/Geometry/Sections` | 17 | `Methods/Geometry/Three_Dimensional/compute_chord_length_from_span_location.py`, `Methods/Geometry/Three_Dimensional/compute_span_location_from_chord_length.py`, `Methods/Geometry/Three_Dimensional/estimate_naca_4_series_internal_volume.py`, `Methods/Geometry/Two_Dimensional/Cross_Section/Propulsion/compute_turbofan_geometry.py`, `Methods/Geometry/Two_Dimensional/Planform/horizontal_tail_planform_raymer.py`, `Methods/Geometry/Two_Dimensional/Planform/vertical_tail_planform_raymer.py`, `Methods/Geometry/Two_Dimensional/Planform/wing_fuel_volume.py` |
| `Verif/IO/Archive` | 14 | `Input_Output/SUAVE/archive.py`, `Input_Output/SUAVE/load.py` |
| `Verif/IO/AvlFolder` | 7 | `Analyses/Aerodynamics/AVL_Inviscid.py`, `Analyses/Stability/AVL.py`, `Methods/Aerodynamics/AVL/run_analysis.py` |
| `Verif/IO/AvlRun` | 9 | `Core/redirect.py`, `Methods/Aerodynamics/AVL/purge_files.py`, `Methods/Aerodynamics/AVL/run_analysis.py` |
| `Verif/IO/Drawings` | 15 | `Input_Output/VTK/save_nacelle_vtk.py`, `Input_Output/VTK/save_prop_vtk.py`, `Plots/Geometry/plot_vehicle.py` |
| `Verif/IO/External` | 40 | `Analyses/Aerodynamics/SU2_Euler.py`, `Analyses/Aerodynamics/SU2_inviscid.py`, `Analyses/Aerodynamics/SU2_inviscid_Super.py`, `Analyses/Aerodynamics/Supersonic_OpenVSP_Wave_Drag.py`, `Input_Output/D3JS/save_tree.py`, `Input_Output/GMSH/write_geo_file.py`, `Input_Output/OpenVSP/get_fuel_tank_properties.py`, `Input_Output/SU2/call_SU2_CFD.py`, `Input_Output/SU2/write_SU2_cfg.py`, `Methods/Aerodynamics/OpenVSP_Wave_Drag/compressibility_drag_total.py`, `Methods/Aerodynamics/OpenVSP_Wave_Drag/wave_drag_volume.py`, `Methods/Aerodynamics/Supersonic_Zero/Drag/compressibility_drag_total.py` |
| `Verif/IO/FlightFigures` | 13 | `Methods/Aerodynamics/Common/Fidelity_Zero/Lift/generate_vortex_distribution.py`, `Plots/Performance/Mission_Plots.py` |
| `Verif/IO/Folder` | 9 | `Core/redirect.py` |
| `Verif/IO/FreeMind` | 10 | `Input_Output/FreeMind/save.py` |
| `Verif/IO/History` | 18 | `Optimization/read_optimization_outputs.py`, `Optimization/write_optimization_outputs.py` |
| `Verif/IO/MissionPanels` | 14 | `Plots/Performance/Mission_Plots.py` |
| `Verif/IO/Plots` | 15 | `Plots/Performance/Mission_Plots.py` |
| `Verif/IO/Redirect` | 12 | `Core/redirect.py` |
| `Verif/IO/Reports` | 21 | `Input_Output/Results/print_engine_data.py`, `Input_Output/Results/print_mission_breakdown.py`, `Input_Output/Results/print_parasite_drag.py` |
| `Verif/IO/RotorPanels` | 8 | `Plots/Performance/Mission_Plots.py`, `Plots/Performance/Propeller_Plots.py` |
| `Verif/IO/SavedPressures` | 6 | `Input_Output/VTK/save_vehicle_vtk.py`, `Input_Output/VTK/save_wing_vtk.py` |
| `Verif/IO/Tables` | 19 | `Input_Output/Results/print_compress_drag.py`, `Input_Output/Results/print_weights.py`, `Methods/Aerodynamics/AVL/read_results.py`, `Methods/Aerodynamics/AVL/write_avl_airfoil_file.py` |
| `Verif/IO/Vtk` | 36 | `Input_Output/VTK/save_fuselage_vtk.py`, `Input_Output/VTK/save_nacelle_vtk.py`, `Input_Output/VTK/save_prop_vtk.py`, `Input_Output/VTK/save_prop_wake_vtk.py`, `Input_Output/VTK/save_vehicle_vtk.py`, `Input_Output/VTK/save_vortex_distribution_vtk.py`, `Input_Output/VTK/save_wing_vtk.py`, `Input_Output/VTK/write_azimuthal_cell_values.py`, `Methods/Aerodynamics/Common/Fidelity_Zero/Lift/extract_wing_VD.py` |
| `Verif/IO/WakeFrames` | 8 | `Input_Output/VTK/store_wake_evolution_vtks.py` |
| `Verif/IO/Xml` | 24 | `Input_Output/XML/Data.py`, `Input_Output/XML/load.py`, `Input_Output/XML/save.py` |
| `Verif/Mission/AllAtOnce` | 6 | `Analyses/Mission/All_At_Once.py`, `Methods/Missions/Segments/Common/Sub_Segments.py`, `Methods/Missions/Segments/expand_state.py`, `Methods/skip.py` |
| `Verif/Mission/AngleClimb` | 8 | `Analyses/Mission/Segments/Climb/Unknown_Throttle.py`, `Methods/Power/Battery/append_initial_battery_conditions.py` |
| `Verif/Mission/Chain` | 24 | `Analyses/Mission/Segments/Aerodynamic.py`, `Methods/Missions/Segments/Climb/Common.py`, `Methods/Missions/Segments/Common/Energy.py`, `Methods/Missions/Segments/Common/Frames.py`, `Methods/Missions/Segments/Common/Numerics.py`, `Methods/Missions/Segments/Common/Sub_Segments.py`, `Methods/Missions/Segments/Common/Weights.py`, `Methods/Missions/Segments/converge_root.py` |
| `Verif/Mission/Converge` | 15 | `Analyses/Mission/Segments/Single_Point/Set_Speed_Set_Altitude.py`, `Analyses/Mission/Segments/Single_Point/Set_Speed_Set_Altitude_No_Propulsion.py`, `Analyses/Mission/Segments/Single_Point/Set_Speed_Set_Throttle.py`, `Methods/Missions/Segments/Climb/Common.py`, `Methods/Missions/Segments/Common/Frames.py`, `Methods/Missions/Segments/Single_Point/Set_Speed_Set_Altitude.py`, `Methods/Missions/Segments/Single_Point/Set_Speed_Set_Altitude_No_Propulsion.py`, `Methods/Missions/Segments/Single_Point/Set_Speed_Set_Throttle.py`, `Methods/Missions/Segments/converge_root.py` |
| `Verif/Mission/Frames` | 22 | `Methods/Geometry/Three_Dimensional/angles_to_dcms.py`, `Methods/Geometry/Three_Dimensional/orientation_product.py`, `Methods/Geometry/Three_Dimensional/orientation_transpose.py`, `Methods/Missions/Segments/Common/Aerodynamics.py`, `Methods/Missions/Segments/Common/Frames.py` |
| `Verif/Mission/Merge` | 25 | `Analyses/Mission/Segments/Conditions/State.py`, `Analyses/Mission/Segments/Segment.py`, `Core/Data.py`, `Methods/Missions/Segments/Common/Sub_Segments.py` |
| `Verif/Mission/PartProcess` | 2 | `Analyses/Aerodynamics/Process_Geometry.py`, `Core/DataOrdered.py` |
| `Verif/Mission/Points` | 47 | `Analyses/Mission/Segments/Climb/Optimized.py`, `Analyses/Mission/Segments/Conditions/Conditions.py`, `Analyses/Mission/Segments/Conditions/State.py`, `Analyses/Mission/Segments/Ground/Ground.py`, `Methods/Missions/Segments/Common/Weights.py`, `Methods/Missions/Segments/Cruise/Variable_Cruise_Distance.py`, `Methods/Missions/Segments/Ground/Common.py`, `Methods/Missions/Segments/optimize.py` |
| `Verif/Mission/Process` | 11 | `Analyses/Analysis.py`, `Analyses/Process.py` |
| `Verif/Mission/Profile` | 46 | `Methods/Missions/Segments/Climb/Common.py`, `Methods/Missions/Segments/Climb/Constant_CAS_Constant_Rate.py`, `Methods/Missions/Segments/Climb/Constant_Dynamic_Pressure_Constant_Angle.py`, `Methods/Missions/Segments/Climb/Constant_Dynamic_Pressure_Constant_Rate.py`, `Methods/Missions/Segments/Climb/Constant_EAS_Constant_Rate.py`, `Methods/Missions/Segments/Climb/Constant_Mach_Constant_Angle.py`, `Methods/Missions/Segments/Climb/Constant_Mach_Constant_Rate.py`, `Methods/Missions/Segments/Climb/Constant_Mach_Linear_Altitude.py`, `Methods/Missions/Segments/Climb/Constant_Speed_Constant_Angle.py`, `Methods/Missions/Segments/Climb/Constant_Speed_Constant_Angle_Noise.py`, `Methods/Missions/Segments/Climb/Constant_Speed_Constant_Rate.py`, `Methods/Missions/Segments/Climb/Constant_Speed_Linear_Altitude.py`, `Methods/Missions/Segments/Climb/Constant_Throttle_Constant_Speed.py`, `Methods/Missions/Segments/Climb/Linear_Mach_Constant_Rate.py`, `Methods/Missions/Segments/Climb/Linear_Speed_Constant_Rate.py`, `Methods/Missions/Segments/Climb/Optimized.py`, `Methods/Missions/Segments/Climb/__init__.py`, `Methods/Missions/Segments/Common/Numerics.py`, `Methods/Missions/Segments/Cruise/Common.py`, `Methods/Missions/Segments/Cruise/Constant_Acceleration_Constant_Altitude.py`, `Methods/Missions/Segments/Cruise/Constant_Dynamic_Pressure_Constant_Altitude.py`, `Methods/Missions/Segments/Cruise/Constant_Dynamic_Pressure_Constant_Altitude_Loiter.py`, `Methods/Missions/Segments/Cruise/Constant_Mach_Constant_Altitude.py`, `Methods/Missions/Segments/Cruise/Constant_Mach_Constant_Altitude_Loiter.py`, `Methods/Missions/Segments/Cruise/Constant_Pitch_Rate_Constant_Altitude.py`, `Methods/Missions/Segments/Cruise/Constant_Speed_Constant_Altitude.py`, `Methods/Missions/Segments/Cruise/Constant_Speed_Constant_Altitude_Loiter.py`, `Methods/Missions/Segments/Cruise/Constant_Throttle_Constant_Altitude.py`, `Methods/Missions/Segments/Cruise/Variable_Cruise_Distance.py`, `Methods/Missions/Segments/Cruise/__init__.py`, `Methods/Missions/Segments/Descent/Constant_CAS_Constant_Rate.py`, `Methods/Missions/Segments/Descent/Constant_EAS_Constant_Rate.py`, `Methods/Missions/Segments/Descent/Constant_Speed_Constant_Angle.py`, `Methods/Missions/Segments/Descent/Constant_Speed_Constant_Angle_Noise.py`, `Methods/Missions/Segments/Descent/Constant_Speed_Constant_Rate.py`, `Methods/Missions/Segments/Descent/Linear_Mach_Constant_Rate.py`, `Methods/Missions/Segments/Descent/__init__.py`, `Methods/Missions/Segments/Ground/Common.py`, `Methods/Missions/Segments/Hover/Climb.py`, `Methods/Missions/Segments/Hover/Common.py`, `Methods/Missions/Segments/Hover/Descent.py`, `Methods/Missions/Segments/Hover/Hover.py`, `Methods/Missions/Segments/Hover/__init__.py`, `Methods/Missions/Segments/Transition/Constant_Acceleration_Constant_Angle_Linear_Climb.py`, `Methods/Missions/Segments/Transition/Constant_Acceleration_Constant_Pitchrate_Constant_Altitude.py`, `Methods/Missions/Segments/Transition/__init__.py` |
| `Verif/Mission/SegmentParameters` | 44 | `Analyses/Mission/Segments/Aerodynamic.py`, `Analyses/Mission/Segments/Climb/Constant_CAS_Constant_Rate.py`, `Analyses/Mission/Segments/Climb/Constant_Dynamic_Pressure_Constant_Angle.py`, `Analyses/Mission/Segments/Climb/Constant_Dynamic_Pressure_Constant_Rate.py`, `Analyses/Mission/Segments/Climb/Constant_EAS_Constant_Rate.py`, `Analyses/Mission/Segments/Climb/Constant_Mach_Constant_Angle.py`, `Analyses/Mission/Segments/Climb/Constant_Mach_Constant_Rate.py`, `Analyses/Mission/Segments/Climb/Constant_Mach_Linear_Altitude.py`, `Analyses/Mission/Segments/Climb/Constant_Speed_Constant_Angle.py`, `Analyses/Mission/Segments/Climb/Constant_Speed_Constant_Angle_Noise.py`, `Analyses/Mission/Segments/Climb/Constant_Speed_Constant_Rate.py`, `Analyses/Mission/Segments/Climb/Constant_Speed_Linear_Altitude.py`, `Analyses/Mission/Segments/Climb/Constant_Throttle_Constant_Speed.py`, `Analyses/Mission/Segments/Climb/Linear_Mach_Constant_Rate.py`, `Analyses/Mission/Segments/Climb/Linear_Speed_Constant_Rate.py`, `Analyses/Mission/Segments/Cruise/Constant_Acceleration_Constant_Altitude.py`, `Analyses/Mission/Segments/Cruise/Constant_Dynamic_Pressure_Constant_Altitude.py`, `Analyses/Mission/Segments/Cruise/Constant_Dynamic_Pressure_Constant_Altitude_Loiter.py`, `Analyses/Mission/Segments/Cruise/Constant_Mach_Constant_Altitude.py`, `Analyses/Mission/Segments/Cruise/Constant_Mach_Constant_Altitude_Loiter.py`, `Analyses/Mission/Segments/Cruise/Constant_Pitch_Rate_Constant_Altitude.py`, `Analyses/Mission/Segments/Cruise/Constant_Speed_Constant_Altitude.py`, `Analyses/Mission/Segments/Cruise/Constant_Speed_Constant_Altitude_Loiter.py`, `Analyses/Mission/Segments/Cruise/Constant_Throttle_Constant_Altitude.py`, `Analyses/Mission/Segments/Descent/Constant_CAS_Constant_Rate.py`, `Analyses/Mission/Segments/Descent/Constant_EAS_Constant_Rate.py`, `Analyses/Mission/Segments/Descent/Constant_Speed_Constant_Angle.py`, `Analyses/Mission/Segments/Descent/Constant_Speed_Constant_Angle_Noise.py`, `Analyses/Mission/Segments/Descent/Constant_Speed_Constant_Rate.py`, `Analyses/Mission/Segments/Descent/Linear_Mach_Constant_Rate.py`, `Analyses/Mission/Segments/Ground/Battery_Charge_Discharge.py`, `Analyses/Mission/Segments/Ground/Ground.py`, `Analyses/Mission/Segments/Ground/Landing.py`, `Analyses/Mission/Segments/Ground/Takeoff.py`, `Analyses/Mission/Segments/Hover/Climb.py`, `Analyses/Mission/Segments/Hover/Descent.py`, `Analyses/Mission/Segments/Hover/Hover.py`, `Analyses/Mission/Segments/Single_Point/Set_Speed_Set_Altitude.py`, `Analyses/Mission/Segments/Single_Point/Set_Speed_Set_Altitude_No_Propulsion.py`, `Analyses/Mission/Segments/Single_Point/Set_Speed_Set_Throttle.py`, `Analyses/Mission/Segments/Transition/Constant_Acceleration_Constant_Angle_Linear_Climb.py`, `Analyses/Mission/Segments/Transition/Constant_Acceleration_Constant_Pitchrate_Constant_Altitude.py`, `Methods/Missions/Segments/Climb/Constant_CAS_Constant_Rate.py`, `Methods/Missions/Segments/Climb/Constant_Dynamic_Pressure_Constant_Angle.py`, `Methods/Missions/Segments/Climb/Constant_Dynamic_Pressure_Constant_Rate.py`, `Methods/Missions/Segments/Climb/Constant_EAS_Constant_Rate.py`, `Methods/Missions/Segments/Climb/Constant_Mach_Constant_Angle.py`, `Methods/Missions/Segments/Climb/Constant_Mach_Constant_Rate.py`, `Methods/Missions/Segments/Climb/Constant_Mach_Linear_Altitude.py`, `Methods/Missions/Segments/Climb/Constant_Speed_Constant_Angle.py`, `Methods/Missions/Segments/Climb/Constant_Speed_Constant_Angle_Noise.py`, `Methods/Missions/Segments/Climb/Constant_Speed_Constant_Rate.py`, `Methods/Missions/Segments/Climb/Constant_Speed_Linear_Altitude.py`, `Methods/Missions/Segments/Climb/Constant_Throttle_Constant_Speed.py`, `Methods/Missions/Segments/Climb/Linear_Mach_Constant_Rate.py`, `Methods/Missions/Segments/Climb/Linear_Speed_Constant_Rate.py`, `Methods/Missions/Segments/Cruise/Constant_Acceleration_Constant_Altitude.py`, `Methods/Missions/Segments/Cruise/Constant_Dynamic_Pressure_Constant_Altitude.py`, `Methods/Missions/Segments/Cruise/Constant_Dynamic_Pressure_Constant_Altitude_Loiter.py`, `Methods/Missions/Segments/Cruise/Constant_Mach_Constant_Altitude.py`, `Methods/Missions/Segments/Cruise/Constant_Mach_Constant_Altitude_Loiter.py`, `Methods/Missions/Segments/Cruise/Constant_Pitch_Rate_Constant_Altitude.py`, `Methods/Missions/Segments/Cruise/Constant_Speed_Constant_Altitude.py`, `Methods/Missions/Segments/Cruise/Constant_Speed_Constant_Altitude_Loiter.py`, `Methods/Missions/Segments/Cruise/Constant_Throttle_Constant_Altitude.py`, `Methods/Missions/Segments/Descent/Constant_CAS_Constant_Rate.py`, `Methods/Missions/Segments/Descent/Constant_EAS_Constant_Rate.py`, `Methods/Missions/Segments/Descent/Constant_Speed_Constant_Angle.py`, `Methods/Missions/Segments/Descent/Constant_Speed_Constant_Angle_Noise.py`, `Methods/Missions/Segments/Descent/Constant_Speed_Constant_Rate.py`, `Methods/Missions/Segments/Descent/Linear_Mach_Constant_Rate.py`, `Methods/Missions/Segments/Ground/Battery_Charge_Discharge.py`, `Methods/Missions/Segments/Ground/Common.py`, `Methods/Missions/Segments/Ground/Takeoff.py`, `Methods/Missions/Segments/Hover/Climb.py`, `Methods/Missions/Segments/Hover/Descent.py`, `Methods/Missions/Segments/Hover/Hover.py`, `Methods/Missions/Segments/Single_Point/Set_Speed_Set_Altitude.py`, `Methods/Missions/Segments/Single_Point/Set_Speed_Set_Altitude_No_Propulsion.py`, `Methods/Missions/Segments/Single_Point/Set_Speed_Set_Throttle.py`, `Methods/Missions/Segments/Transition/Constant_Acceleration_Constant_Angle_Linear_Climb.py`, `Methods/Missions/Segments/Transition/Constant_Acceleration_Constant_Pitchrate_Constant_Altitude.py` |
| `Verif/Mission/VehicleAnalyses` | 11 | `Analyses/Vehicle.py`, `Core/Container.py`, `Core/Data.py` |
| `Verif/Nexus/Alias` | 16 | `Optimization/helper_functions.py` |
| `Verif/Nexus/Cache` | 12 | `Optimization/Nexus.py` |
| `Verif/Nexus/Table` | 18 | `Optimization/Nexus.py`, `Optimization/helper_functions.py` |
| `Verif/Noise/Airframe` | 21 | `Methods/Noise/Fidelity_One/Airframe/noise_airframe_Fink.py`, `Methods/Noise/Fidelity_One/Airframe/noise_clean_wing.py`, `Methods/Noise/Fidelity_One/Airframe/noise_landing_gear.py`, `Methods/Noise/Fidelity_One/Airframe/noise_leading_edge_slat.py`, `Methods/Noise/Fidelity_One/Airframe/noise_trailing_edge_flap.py`, `Methods/Noise/Fidelity_One/Noise_Tools/atmospheric_attenuation.py` |
| `Verif/Noise/Certification` | 15 | `Methods/Noise/Fidelity_One/Noise_Tools/noise_certification_limits.py`, `Methods/Noise/Fidelity_Zero/shevell.py` |
| `Verif/Noise/Figures` | 8 | `Plots/Performance/Mission_Plots.py` |
| `Verif/Noise/Flyover` | 15 | `Methods/Noise/Certification/approach_noise.py`, `Methods/Noise/Certification/flyover_noise.py`, `Methods/Noise/Certification/sideline_noise.py`, `Methods/Noise/Fidelity_One/Noise_Tools/compute_noise.py` |
| `Verif/Noise/Jet` | 64 | `Methods/Noise/Fidelity_One/Engine/mixed_noise_component.py`, `Methods/Noise/Fidelity_One/Engine/noise_SAE.py`, `Methods/Noise/Fidelity_One/Engine/primary_noise_component.py`, `Methods/Noise/Fidelity_One/Engine/secondary_noise_component.py` |
| `Verif/Noise/Microphones` | 20 | `Methods/Noise/Fidelity_One/Noise_Tools/compute_noise_evaluation_locations.py`, `Methods/Noise/Fidelity_One/Noise_Tools/generate_microphone_points.py`, `Methods/Noise/Fidelity_One/Noise_Tools/noise_geometric.py` |
| `Verif/Noise/PropReport` | 5 | `Methods/Noise/Fidelity_One/Noise_Tools/print_propeller_output.py` |
| `Verif/Noise/Propeller` | 42 | `Components/Energy/Converters/Rotor.py`, `Methods/Noise/Fidelity_One/Propeller/compute_broadband_noise.py`, `Methods/Noise/Fidelity_One/Propeller/compute_harmonic_noise.py`, `Methods/Noise/Fidelity_One/Propeller/compute_source_coordinates.py`, `Methods/Noise/Fidelity_One/Propeller/propeller_mid_fidelity.py` |
| `Verif/Noise/Report` | 14 | `Methods/Noise/Fidelity_One/Noise_Tools/print_airframe_output.py`, `Methods/Noise/Fidelity_One/Noise_Tools/print_engine_output.py` |
| `Verif/Noise/RotorTotals` | 7 | `Methods/Noise/Fidelity_One/Noise_Tools/decibel_arithmetic.py`, `Methods/Noise/Fidelity_One/Propeller/propeller_mid_fidelity.py` |
| `Verif/Noise/Segment` | 11 | `Analyses/Noise/Fidelity_One.py` |
| `Verif/Noise/Tools` | 41 | `Analyses/Noise/Fidelity_One.py`, `Methods/Noise/Fidelity_One/Noise_Tools/SPL_harmonic_to_third_octave.py`, `Methods/Noise/Fidelity_One/Noise_Tools/dbA_noise.py`, `Methods/Noise/Fidelity_One/Noise_Tools/decibel_arithmetic.py`, `Methods/Noise/Fidelity_One/Noise_Tools/epnl_noise.py`, `Methods/Noise/Fidelity_One/Noise_Tools/noise_tone_correction.py`, `Methods/Noise/Fidelity_One/Noise_Tools/pnl_noise.py`, `Methods/Noise/Fidelity_One/Noise_Tools/senel_noise.py` |
| `Verif/Noise/Weighted` | 2 | `Methods/Noise/Fidelity_One/Airframe/noise_airframe_Fink.py`, `Methods/Noise/Fidelity_One/Engine/noise_SAE.py` |
| `Verif/Num/Blend` | 3 | `Methods/Utilities/Cubic_Spline_Blender.py`, `Methods/Utilities/soft_max.py` |
| `Verif/Num/Interp` | 5 | `Core/Utilities.py` |
| `Verif/Num/Lhs` | 6 | `Methods/Utilities/latin_hypercube_sampling.py` |
| `Verif/Num/Spectral` | 8 | `Methods/Utilities/Chebyshev/chebyshev_data.py`, `Methods/Utilities/Chebyshev/linear_data.py` |
| `Verif/Optim/Additive` | 38 | `Optimization/Package_Setups/additive_setup.py`, `Optimization/Package_Setups/pyopt_setup.py`, `Optimization/Surrogate_Optimization.py`, `Optimization/carpet_plot.py`, `Optimization/helper_functions.py`, `Optimization/line_plot.py`, `Surrogate/svr_surrogate_functions.py` |
| `Verif/Optim/Carpet` | 5 | `Optimization/Package_Setups/additive_setup.py` |
| `Verif/Optim/Compare` | 6 | `Optimization/Package_Setups/TRMM/Trust_Region_Optimization.py` |
| `Verif/Optim/Setups` | 21 | `Optimization/Nexus.py`, `Optimization/Package_Setups/ipopt_setup.py`, `Optimization/Package_Setups/pyopt_setup.py`, `Optimization/Package_Setups/pyopt_surrogate_setup.py`, `Optimization/Package_Setups/pyoptsparse_setup.py`, `Optimization/Package_Setups/scipy_setup.py`, `Optimization/helper_functions.py` |
| `Verif/Optim/Snopt` | 10 | `Optimization/Package_Setups/TRMM/Trust_Region_Optimization.py`, `Optimization/Package_Setups/additive_setup.py` |
| `Verif/Optim/SurrogateFail` | 5 | `Surrogate/Surrogate_Problem.py` |
| `Verif/Optim/SurrogateFit` | 11 | `Surrogate/kriging_surrogate_functions.py`, `Surrogate/scikit_surrogate_functions.py`, `Surrogate/svr_surrogate_functions.py` |
| `Verif/Optim/Swarm` | 16 | `Optimization/Package_Setups/particle_swarm_optimization.py` |
| `Verif/Optim/TrustRegion` | 24 | `Optimization/Package_Setups/TRMM/Trust_Region.py`, `Optimization/Package_Setups/TRMM/Trust_Region_Optimization.py` |
| `Verif/Ordered/Model` | 29 | `Core/DataOrdered.py` |
| `Verif/Performance/Estimates` | 12 | `Components/Energy/Networks/PyCycle.py`, `Components/Wings/Wing.py`, `Input_Output/VTK/save_evaluation_points_vtk.py`, `Methods/Aerodynamics/Common/Fidelity_Zero/Helper_Functions/estimate_2ndseg_lift_drag_ratio.py`, `Methods/Center_of_Gravity/compute_mission_center_of_gravity.py` |
| `Verif/Performance/Field` | 27 | `Methods/Aerodynamics/Common/Fidelity_Zero/Helper_Functions/asymmetry_drag.py`, `Methods/Aerodynamics/Common/Fidelity_Zero/Helper_Functions/windmilling_drag.py`, `Methods/Performance/electric_V_h_diagram.py`, `Methods/Performance/electric_payload_range.py`, `Methods/Performance/estimate_landing_field_length.py`, `Methods/Performance/estimate_stall_speed.py`, `Methods/Performance/estimate_take_off_field_length.py`, `Methods/Performance/find_take_off_weight_given_tofl.py`, `Methods/Performance/maximum_lift_to_drag.py`, `Methods/Performance/propeller_range_endurance_speeds.py` |
| `Verif/Performance/Gust` | 11 | `Methods/Performance/V_n_diagram.py` |
| `Verif/Performance/PayloadRange` | 9 | `Methods/Performance/payload_range.py` |
| `Verif/Performance/Vn` | 22 | `Methods/Performance/V_n_diagram.py` |
| `Verif/Physics/AirGas` | 9 | `Attributes/Gases/Air.py` |
| `Verif/Physics/Atmosphere` | 12 | `Analyses/Atmospheric/US_Standard_1976.py`, `Attributes/Atmospheres/Earth/US_Standard_1976.py`, `Attributes/Gases/Air.py`, `Attributes/Planets/Earth.py` |
| `Verif/Physics/Compositions` | 19 | `Attributes/Constants/Composition.py`, `Attributes/Gases/Air.py`, `Attributes/Gases/CO2.py`, `Attributes/Gases/Gas.py`, `Attributes/Gases/Steam.py`, `Attributes/Propellants/Aviation_Gasoline.py`, `Attributes/Propellants/Gaseous_H2.py`, `Attributes/Propellants/JP7.py`, `Attributes/Propellants/Jet_A.py`, `Attributes/Propellants/Jet_A1.py`, `Attributes/Propellants/Liquid_Natural_Gas.py`, `Attributes/Propellants/Propellant.py`, `Core/Data.py` |
| `Verif/Physics/ConstTemp` | 3 | `Analyses/Atmospheric/Constant_Temperature.py`, `Methods/Missions/Segments/Common/Aerodynamics.py` |
| `Verif/Physics/ExitShock` | 2 | `Methods/Propulsion/nozzle_calculations.py` |
| `Verif/Physics/Shock` | 22 | `Components/Energy/Converters/Combustor.py`, `Components/Energy/Converters/Compression_Nozzle.py`, `Methods/Aerodynamics/Common/Gas_Dynamics/Oblique_Shock.py`, `Methods/Propulsion/fm_solver.py`, `Methods/Propulsion/nozzle_calculations.py`, `Methods/Propulsion/rayleigh.py`, `Methods/Propulsion/shock_train.py` |
| `Verif/Physics/SteamGas` | 7 | `Attributes/Gases/CO2.py`, `Attributes/Gases/Steam.py` |
| `Verif/Rotor/Blade` | 39 | `Components/Energy/Converters/Rotor.py`, `Methods/Aerodynamics/Common/Fidelity_Zero/Lift/BET_calculations.py`, `Methods/Propulsion/Rotor_Wake/Fidelity_Zero/fidelity_zero_wake_convergence.py` |
| `Verif/Rotor/BladeDeriv` | 7 | `Methods/Propulsion/Rotor_Wake/Fidelity_Zero/fidelity_zero_wake_convergence.py` |
| `Verif/Rotor/Orientation` | 9 | `Components/Energy/Converters/Rotor.py`, `Components/Nacelles/Nacelle.py` |
| `Verif/Rotor/Single` | 7 | `Components/Energy/Converters/Rotor.py`, `Methods/Performance/propeller_single_point.py` |
| `Verif/Rotor/Upstream` | 14 | `Components/Energy/Networks/Battery_Cell_Cycler.py`, `Methods/Aerodynamics/Common/Fidelity_Zero/Lift/compute_propeller_nonuniform_freestream.py`, `Methods/Aerodynamics/Common/Fidelity_Zero/Lift/generate_propeller_grid.py` |
| `Verif/Rotor/VortexWake` | 42 | `Analyses/Propulsion/Rotor_Wake_Fidelity_One.py`, `Analyses/Propulsion/Rotor_Wake_Fidelity_Two.py`, `Components/Energy/Networks/Battery_Propeller.py`, `Components/Energy/Networks/Lift_Cruise.py`, `Methods/Aerodynamics/Common/Fidelity_Zero/Lift/extract_wing_VD.py`, `Methods/Propulsion/Rotor_Wake/Fidelity_One/compute_fidelity_one_inflow_velocities.py`, `Methods/Propulsion/Rotor_Wake/Fidelity_One/compute_wake_induced_velocity.py`, `Methods/Propulsion/Rotor_Wake/Fidelity_One/fidelity_one_wake_convergence.py`, `Methods/Propulsion/Rotor_Wake/Fidelity_One/generate_fidelity_one_wake_shape.py`, `Methods/Propulsion/Rotor_Wake/Fidelity_Zero/compute_wake_contraction_matrix.py` |
| `Verif/Rotor/Wake` | 18 | `Analyses/Propulsion/Rotor_Wake_Fidelity_Zero.py`, `Methods/Propulsion/Rotor_Wake/Fidelity_Zero/compute_fidelity_zero_induced_velocity.py`, `Methods/Propulsion/Rotor_Wake/Fidelity_Zero/compute_wake_contraction_matrix.py`, `Methods/Propulsion/propeller_design.py` |
| `Verif/Stability/FlightModes` | 25 | `Methods/Aerodynamics/AVL/read_results.py`, `Methods/Flight_Dynamics/Dynamic_Stability/compute_dynamic_flight_modes.py`, `Methods/Flight_Dynamics/Static_Stability/compute_aero_derivatives.py` |
| `Verif/Stability/Modes` | 20 | `Methods/Flight_Dynamics/Dynamic_Stability/Approximations/dutch_roll.py`, `Methods/Flight_Dynamics/Dynamic_Stability/Approximations/phugoid.py`, `Methods/Flight_Dynamics/Dynamic_Stability/Approximations/roll.py`, `Methods/Flight_Dynamics/Dynamic_Stability/Approximations/short_period.py`, `Methods/Flight_Dynamics/Dynamic_Stability/Approximations/spiral.py`, `Methods/Flight_Dynamics/Dynamic_Stability/Full_Linearized_Equations/lateral_directional.py`, `Methods/Flight_Dynamics/Dynamic_Stability/Full_Linearized_Equations/longitudinal.py` |
| `Verif/Stability/Planform` | 15 | `Methods/Flight_Dynamics/Static_Stability/Approximations/Supporting_Functions/convert_sweep.py`, `Methods/Flight_Dynamics/Static_Stability/Approximations/Supporting_Functions/extend_to_ref_area.py`, `Methods/Flight_Dynamics/Static_Stability/Approximations/Supporting_Functions/trapezoid_ac_x.py`, `Methods/Flight_Dynamics/Static_Stability/Approximations/Supporting_Functions/trapezoid_mac.py`, `Methods/Flight_Dynamics/Static_Stability/Approximations/datcom.py` |
| `Verif/Stability/Static` | 22 | `Analyses/Stability/Fidelity_Zero.py`, `Methods/Flight_Dynamics/Dynamic_Stability/Full_Linearized_Equations/Supporting_Functions/ep_alpha.py`, `Methods/Flight_Dynamics/Static_Stability/Approximations/Tube_Wing/taw_cmalpha.py`, `Methods/Flight_Dynamics/Static_Stability/Approximations/Tube_Wing/taw_cnbeta.py`, `Methods/Flight_Dynamics/Static_Stability/Approximations/datcom.py` |
| `Verif/Stability/SurfaceDerivatives` | 9 | `Methods/Flight_Dynamics/Static_Stability/compute_aero_derivatives.py` |
| `Verif/Stability/ZeroDynamics` | 22 | `Analyses/Stability/Fidelity_Zero.py`, `Methods/Flight_Dynamics/Dynamic_Stability/Full_Linearized_Equations/Supporting_Functions/cl_beta.py`, `Methods/Flight_Dynamics/Dynamic_Stability/Full_Linearized_Equations/Supporting_Functions/cl_p.py`, `Methods/Flight_Dynamics/Dynamic_Stability/Full_Linearized_Equations/Supporting_Functions/cl_r.py`, `Methods/Flight_Dynamics/Dynamic_Stability/Full_Linearized_Equations/Supporting_Functions/cm_alphadot.py`, `Methods/Flight_Dynamics/Dynamic_Stability/Full_Linearized_Equations/Supporting_Functions/cm_q.py`, `Methods/Flight_Dynamics/Dynamic_Stability/Full_Linearized_Equations/Supporting_Functions/cn_p.py`, `Methods/Flight_Dynamics/Dynamic_Stability/Full_Linearized_Equations/Supporting_Functions/cn_r.py`, `Methods/Flight_Dynamics/Dynamic_Stability/Full_Linearized_Equations/Supporting_Functions/cx_alpha.py`, `Methods/Flight_Dynamics/Dynamic_Stability/Full_Linearized_Equations/Supporting_Functions/cx_u.py`, `Methods/Flight_Dynamics/Dynamic_Stability/Full_Linearized_Equations/Supporting_Functions/cy_phi.py`, `Methods/Flight_Dynamics/Dynamic_Stability/Full_Linearized_Equations/Supporting_Functions/cy_psi.py`, `Methods/Flight_Dynamics/Dynamic_Stability/Full_Linearized_Equations/Supporting_Functions/cz_alpha.py`, `Methods/Flight_Dynamics/Dynamic_Stability/Full_Linearized_Equations/Supporting_Functions/cz_alphadot.py`, `Methods/Flight_Dynamics/Dynamic_Stability/Full_Linearized_Equations/Supporting_Functions/cz_q.py`, `Methods/Flight_Dynamics/Dynamic_Stability/Full_Linearized_Equations/Supporting_Functions/cz_u.py`, `Methods/Flight_Dynamics/Dynamic_Stability/Full_Linearized_Equations/Supporting_Functions/ep_alpha.py` |
| `Verif/Units/Contexts` | 30 | `Plugins/pint/compat.py`, `Plugins/pint/context.py`, `Plugins/pint/measurement.py`, `Plugins/pint/quantity.py`, `Plugins/pint/unit.py` |
| `Verif/Units/Graph` | 8 | `Plugins/pint/util.py` |
| `Verif/Units/Quantity` | 18 | `Core/Units.py`, `Plugins/pint/quantity.py`, `Plugins/pint/unit.py` |
| `Verif/Vehicle/CgMap` | 5 | `Core/Units.py`, `Methods/Center_of_Gravity/compute_fuel_center_of_gravity_longitudinal_range.py` |
| `Verif/Vehicle/Mass` | 36 | `Components/Physical_Component.py`, `Methods/Center_of_Gravity/compute_component_centers_of_gravity.py`, `Methods/Center_of_Gravity/compute_fuel_center_of_gravity_longitudinal_range.py`, `Vehicle.py` |
| `Verif/Vlm/Analysis` | 14 | `Analyses/Aerodynamics/Vortex_Lattice.py` |
| `Verif/Vlm/Body` | 14 | `Methods/Aerodynamics/Common/Fidelity_Zero/Lift/generate_vortex_distribution.py` |
| `Verif/Vlm/Boundary` | 15 | `Methods/Aerodynamics/Common/Fidelity_Zero/Lift/VLM.py`, `Methods/Aerodynamics/Common/Fidelity_Zero/Lift/compute_RHS_matrix.py`, `Methods/Aerodynamics/Common/Fidelity_Zero/Lift/generate_VD_helpers.py` |
| `Verif/Vlm/CopyWings` | 22 | `Core/Data.py`, `Methods/Aerodynamics/Common/Fidelity_Zero/Lift/make_VLM_wings.py` |
| `Verif/Vlm/Cuts` | 6 | `Methods/Aerodynamics/Common/Fidelity_Zero/Lift/make_VLM_wings.py` |
| `Verif/Vlm/Deflect` | 12 | `Methods/Aerodynamics/Common/Fidelity_Zero/Lift/deflect_control_surface.py` |
| `Verif/Vlm/Edge` | 7 | `Methods/Aerodynamics/Common/Fidelity_Zero/Lift/VLM.py` |
| `Verif/Vlm/Forces` | 23 | `Methods/Aerodynamics/Common/Fidelity_Zero/Lift/VLM.py`, `Methods/Aerodynamics/Common/Fidelity_Zero/Lift/generate_VD_helpers.py` |
| `Verif/Vlm/Horseshoe` | 46 | `Methods/Aerodynamics/Common/Fidelity_Zero/Lift/compute_wing_induced_velocity.py` |
| `Verif/Vlm/Layout` | 20 | `Methods/Aerodynamics/Common/Fidelity_Zero/Lift/VLM.py`, `Methods/Aerodynamics/Common/Fidelity_Zero/Lift/generate_VD_helpers.py` |
| `Verif/Vlm/Panels` | 29 | `Components/Wings/Vertical_Tail.py`, `Components/Wings/Vertical_Tail_All_Moving.py`, `Methods/Aerodynamics/Common/Fidelity_Zero/Lift/generate_vortex_distribution.py`, `Methods/Aerodynamics/Common/Fidelity_Zero/Lift/make_VLM_wings.py` |
| `Verif/Vlm/PlainWing` | 5 | `Methods/Aerodynamics/Common/Fidelity_Zero/Lift/make_VLM_wings.py` |
| `Verif/Vlm/Stations` | 21 | `Methods/Aerodynamics/Common/Fidelity_Zero/Lift/generate_vortex_distribution.py`, `Methods/Aerodynamics/Common/Fidelity_Zero/Lift/make_VLM_wings.py` |
| `Verif/Vsp/Bem` | 10 | `Input_Output/OpenVSP/vsp_propeller.py` |
| `Verif/Vsp/Body` | 23 | `Input_Output/OpenVSP/vsp_fuselage.py`, `Input_Output/OpenVSP/vsp_nacelle.py`, `Input_Output/OpenVSP/vsp_propeller.py` |
| `Verif/Vsp/FuselageExport` | 19 | `Input_Output/OpenVSP/vsp_fuselage.py` |
| `Verif/Vsp/Vehicle` | 27 | `Input_Output/OpenVSP/get_vsp_measurements.py`, `Input_Output/OpenVSP/mach_slices.py`, `Input_Output/OpenVSP/vsp_read.py`, `Input_Output/OpenVSP/vsp_write.py`, `Input_Output/OpenVSP/write_vsp_mesh.py` |
| `Verif/Vsp/Wing` | 24 | `Input_Output/OpenVSP/vsp_wing.py` |
| `Verif/Weights/Bending` | 5 | `Methods/Weights/Correlations/Common/wing_main.py` |
| `Verif/Weights/Buildup` | 49 | `Methods/Weights/Buildups/Common/prop.py`, `Methods/Weights/Buildups/Common/wing.py`, `Methods/Weights/Buildups/Common/wiring.py`, `Methods/Weights/Buildups/eVTOL/converge_evtol_weight.py`, `Methods/Weights/Buildups/eVTOL/empty.py` |
| `Verif/Weights/Common` | 36 | `Components/Wings/Wing.py`, `Methods/Weights/Correlations/Common/landing_gear.py`, `Methods/Weights/Correlations/Common/payload.py`, `Methods/Weights/Correlations/Common/systems.py`, `Methods/Weights/Correlations/Common/wing_main.py`, `Methods/Weights/Correlations/FLOPS/operating_items.py`, `Methods/Weights/Correlations/Propulsion/air_cooled_motor.py`, `Methods/Weights/Correlations/Propulsion/engine_jet.py`, `Methods/Weights/Correlations/Propulsion/engine_piston.py`, `Methods/Weights/Correlations/Propulsion/hts_motor.py`, `Methods/Weights/Correlations/Propulsion/integrated_propulsion.py`, `Methods/Weights/Correlations/Propulsion/integrated_propulsion_general_aviation.py`, `Methods/Weights/Correlations/Propulsion/nasa_motor.py`, `Methods/Weights/Correlations/Transport/operating_items.py`, `Methods/Weights/Correlations/Transport/tail_horizontal.py`, `Methods/Weights/Correlations/Transport/tail_vertical.py`, `Methods/Weights/Correlations/Transport/tube.py` |
| `Verif/Weights/Flops` | 43 | `Methods/Weights/Correlations/FLOPS/fuselage.py`, `Methods/Weights/Correlations/FLOPS/landing_gear.py`, `Methods/Weights/Correlations/FLOPS/operating_items.py`, `Methods/Weights/Correlations/FLOPS/payload.py`, `Methods/Weights/Correlations/FLOPS/prop_system.py`, `Methods/Weights/Correlations/FLOPS/systems.py`, `Methods/Weights/Correlations/FLOPS/tail.py`, `Methods/Weights/Correlations/FLOPS/wing.py`, `Methods/Weights/Correlations/Raymer/landing_gear.py`, `Methods/Weights/Correlations/Raymer/prop_system.py`, `Methods/Weights/Correlations/Raymer/systems.py`, `Methods/Weights/Correlations/Raymer/tail.py`, `Methods/Weights/Correlations/Raymer/wing_main_raymer.py`, `Vehicle.py` |
| `Verif/Weights/FlopsWing` | 15 | `Methods/Weights/Correlations/FLOPS/wing.py` |
| `Verif/Weights/Light` | 34 | `Methods/Weights/Correlations/BWB/aft_centerbody.py`, `Methods/Weights/Correlations/BWB/cabin.py`, `Methods/Weights/Correlations/BWB/empty.py`, `Methods/Weights/Correlations/Common/weight_transport.py`, `Methods/Weights/Correlations/General_Aviation/empty.py`, `Methods/Weights/Correlations/General_Aviation/fuselage.py`, `Methods/Weights/Correlations/General_Aviation/landing_gear.py`, `Methods/Weights/Correlations/General_Aviation/payload.py`, `Methods/Weights/Correlations/General_Aviation/systems.py`, `Methods/Weights/Correlations/General_Aviation/tail_horizontal.py`, `Methods/Weights/Correlations/General_Aviation/tail_vertical.py`, `Methods/Weights/Correlations/General_Aviation/wing_main.py`, `Methods/Weights/Correlations/Human_Powered/empty.py`, `Methods/Weights/Correlations/Human_Powered/tail.py`, `Methods/Weights/Correlations/Human_Powered/wing.py`, `Methods/Weights/Correlations/UAV/empty.py` |
| `Verif/Weights/Materials` | 9 | `Methods/Weights/Buildups/Common/prop.py`, `Methods/Weights/Buildups/Common/wing.py` |
| `Verif/Weights/Raymer` | 9 | `Methods/Weights/Correlations/Raymer/fuselage.py`, `Methods/Weights/Correlations/Raymer/landing_gear.py`, `Methods/Weights/Correlations/Raymer/prop_system.py`, `Methods/Weights/Correlations/Raymer/systems.py`, `Methods/Weights/Correlations/Raymer/tail.py` |
| `Verif/Weights/RaymerItems` | 14 | `Methods/Weights/Correlations/Raymer/systems.py` |
| `Verif/Weights/Solids` | 18 | `Attributes/Solids/Acrylic.py`, `Attributes/Solids/Aluminum.py`, `Attributes/Solids/Aluminum_Rib.py`, `Attributes/Solids/Bidirectional_Carbon_Fiber.py`, `Attributes/Solids/Carbon_Fiber_Honeycomb.py`, `Attributes/Solids/Copper.py`, `Attributes/Solids/Epoxy.py`, `Attributes/Solids/Magnesium.py`, `Attributes/Solids/Nickel.py`, `Attributes/Solids/Paint.py`, `Attributes/Solids/Solid.py`, `Attributes/Solids/Steel.py`, `Attributes/Solids/Titanium.py`, `Attributes/Solids/Unidirectional_Carbon_Fiber.py`, `Methods/Weights/Buildups/Common/prop.py`, `Methods/Weights/Buildups/Common/wing.py` |
| `Verif/Weights/TorsionBox` | 6 | `Methods/Weights/Buildups/Common/prop.py`, `Methods/Weights/Buildups/Common/wing.py` |
| `Verif/Weights/Transport` | 27 | `Analyses/Weights/Weights_Transport.py`, `Methods/Weights/Buildups/eVTOL/empty.py`, `Methods/Weights/Correlations/BWB/empty.py`, `Methods/Weights/Correlations/Common/weight_transport.py`, `Methods/Weights/Correlations/FLOPS/prop_system.py`, `Methods/Weights/Correlations/Raymer/prop_system.py`, `Methods/Weights/Correlations/UAV/empty.py` |
| `Verif/Weights/WebHeight` | 6 | `Methods/Weights/Buildups/Common/prop.py`, `Methods/Weights/Buildups/Common/wing.py` |

## What is not modelled

* Vortex lattice, panel, propeller, noise and stability methods, surrogate
  training, cost and emission methods, plotting, the interfaces to AVL, SU2,
  OpenVSP, GMSH and VMEC, the documentation and the regression scripts.
* Of the files cited above only the functions named in the comments are
  modelled.
* Floating point, array broadcasting errors (unless a definition represents
  them), time, randomness (draws are inputs), the file system below the level
  stated in `Verif/IO`, threads and processes.

## Findings

Places where the code does not do what a user relies on. Each has a
counterexample theorem about the model.

| Id | Finding |
|----|----|
| C04 | `deep_get` ignores the index suffix of a name that `deep_set` honours |
| C06 | an unlucky random suffix raises `KeyError`; capitalised tags are not found again |
| C09 | the duplicate check of the ordered container never fires |
| C10 | a change that broadcasts to equality is not seen by `diff` |
| C12 | deleted entries come back as `None` |
| C14 | a failed evaluation is answered from the cache the next time |
| C16 | the bound of a constraint is not divided by its scale while the value is |
| C17 | rows of alias tables with other than one target misalign the values |
| C20 | the SLSQP feasibility solve uses constraint edges as variable bounds |
| C21 | the swarm can return its sentinel value |
| C22 | constraint closures see the last loop value; `=` rows only |
| C34 | merging states misaligns missing fields, swallows shape mismatches, drops later fields of containers, and slices two-column unknowns wrongly |
| C36 | stored energy can exceed the capacity in mixed or discharge-only histories |
| C37 | for one-sided wings the height of the aerodynamic centre is halved |
| C39 | a control surface starting flush with a station and ending beyond the next one loses a panel |
| C42 | components stored inside components are not counted in the centre of gravity |
| C43 | numpy scalars and tuples are saved as nothing, empty matrices lose their width, a list of arrays cannot be saved |
| C44 | white space around XML content is lost |
| C45 | a unit object used once for multiplication gives wrong results later; products with kelvin cannot be divided by; the factor of Fahrenheit differences is inverted |
| C48 | output stays redirected when an object is re-entered or reused, or its stream is closed inside the block |
| C49 | the user's limit load factor is ignored for heavy aircraft and cut for light ones; a negative limit given as magnitude makes the lower boundary positive |
| C50 | with small tanks take-off weight is not the sum of its parts and payload exceeds its maximum; the zero-range point has take-off weight zero |
| C51 | the history divides inputs by their upper bound instead of their scale; histories without constraints cannot be read |
| C52 | objective units are applied twice |
| C53 | finite differences leave the design point perturbed |
| C54 | entries named like container methods vanish |
| C55 | a rejected candidate can be returned |
| C56 | constraint edges are used unscaled beside scaled values |
| C57 | an infeasible start can block feasible points |
| C58 | IPOPT bounds are not scaled, negative scales swap bounds, surrogate optimization applies units twice and drops `=` rows |
| C59 | NaN constraints are not flagged as failed |
| C60 | the linear collocation data integrates with Chebyshev weights |
| C62 | initialising an analysis container always raises |
| C63 | the last altitude of the previous segment is overwritten |
| C65 | constant Mach, linear altitude: altitude and vertical speed disagree |
| C67 | density of the previous evaluation is used |
| C68 | climb-out starts at another velocity |
| C69 | absolute time enters the pitch angle |
| C71 | noise climb is one half second too long |
| C72 | friction pushes forward when lift exceeds weight |
| C74 | the high-Reynolds branch is never taken |
| C75 | segmented wetted area is halved, one-sided thickness doubled |
| C77 | engines beyond the first pair are moved |
| C78 | clamps break the sum of lengths; the seat count changes on a second call |
| C79 | the product of rotations is taken in the wrong order |
| C81 | longitude ignores the start latitude and takes the cosine of degrees |
| C82 | payloads cannot be appended |
| C83 | the propulsion centre is wrong for several networks; hydraulics follow the last wing |
| C84 | a missing file to push leaves the process in the folder and deletes the old file; a block in the current folder restores nothing |
| C85 | with equal manoeuvre speeds the cruise speed stays below them |
| C87 | the gust corner of the utility category uses the wrong end point |
| C89 | an inlet with a pressure loss lowers the stagnation temperature of the air |
| C90 | the afterburner's share of fuel is written to a name the burner never reads; the burner's reported ratio is changed in place by the afterburner sum |
| C91 | `Air`'s fits of cp and γ do not satisfy cp (γ-1) = γ R, so exit velocity is not Mach number times speed of sound |
| C93 | turbofan sizing leaves the shaft power off-take out; with explicit `conditions` the name `planet` is never bound (`turbofan_sizing.py` 243; same in the ramjet and scramjet sizing), not modelled |
| C95 | static pressure is stored as stagnation pressure (`Turbofan.py` 282, 290) |
| C101 | `Combustor.py` 340: the factor M² multiplies the bracket, so the static temperature is lost |
| C102 | `Scramjet.evaluate_thrust` never refreshes the reference stagnation values: air flow is frozen at the sizing value |
| C103 | with a shock inside the nozzle the exit is computed without a shock and may be supersonic |
| C104 | with a no-load current the propeller turns backwards at zero throttle |
| C106 | a windmilling motor reports zero current, braking torque and a division by zero as efficiency |
| C107 | the low-fidelity motor without no-load current (the default) picks the unloaded root: no torque at any efficiency; unreachable efficiencies are replaced silently |
| C108 | `currentin` does not limit the throttle as `voltageout` does: power is not balanced outside zero to one |
| C109 | a negative throttle charges the battery; system current uses the nominal voltage; `propeller_thrust` is the running total; `electronics_efficiency` uses one propeller's power; `battery_cell_power_draw` ignores cells in parallel |
| C111 | the gearbox multiplies torque by the speed ratio instead of dividing by it |
| C112 | the battery current recorded by the solar networks is the motors' current; throttle above one is applied twice in the low-fidelity network |
| C113 | zero throttle divides by zero; throttle above one multiplies the power; the generator burns full power fuel regardless of demand |
| C114 | the sun's azimuth is the absolute value of its cosine, not an angle |
| C115 | the planet's radius in metres is divided by nine (kilometres): air masses near the horizon are some thirty times too large |
| C116 | a flight starting late in the day does not move on to the next day; the hour angle is not brought into one turn before its sign is taken |
| C117 | `SPL_arithmetic` of a plain list returns it as it is |
| C118 | each unused row of the source table counts as a source of 0 dB; turbofan noise overwrites the airframe's; rotors declared different are evaluated with growing containers and counted again; the row index overruns with two networks of propellers and lift rotors |
| C119 | a tone on a band edge is counted in both bands; empty bands read 0 dB |
| C120 | a flyover ending at its maximum loses that point; sound after a dip of ten decibels is not heard |
| C121 | tones at 400 Hz, 2 kHz and 5 kHz, and of exactly 20 dB, get no correction; the function returns after the first spectrum |
| C122 | levels between the upper limit and 85.9 dB read as silence; the 10 kHz band is never computed |
| C124 | walls with different resolutions along x and y raise an error; the base height is not added |
| C125 | without a certification flag the microphone's place follows the altitude; zeros in the mission's position vector are overwritten |
| C126 | the limits have no floor and no ceiling |
| C127 | vertical tail not in the total; retracted gear and flap count as 0 dB and more with several main units; three main units count as four; last time step never computed; nose tyre taken as main strut and main strut as nose tyre; slat absorbed twice; six-wheel bogies raise an error; triple slotted flap spectrum jumps by 3 dB |
| C128 | the thrust polynomial falls beyond 53 800 lb |
| C129 | at Reynolds numbers of a few, the laminar formula exceeds the turbulent one |
| C130 | division by zero at Mach 1 for an unswept wing; a fuselage of slenderness 0.8 jumps in form factor at Mach 0.95; the chord at the fuselage side of a symmetric tapered wing is taken with the slope of a wing twice as long |
| C131 | two parts with one name overwrite each other and are scaled twice; pylon averages are divided by the number of networks |
| C132 | with a span efficiency the vehicle's inviscid drag stays the old one; the viscous drag uses coefficients already referred to the vehicle's area and multiplies by the area ratio again |
| C133 | the crest-critical polynomial rises again with lift: at 37 degrees of sweep a lift coefficient of 1.6 has less drag than 1 |
| C134 | excrescence drag falls beyond 2075 m² and is negative beyond 4189 m²; a nacelle with several origins is counted once in parasite and windmilling drag, several times in excrescences |
| C135 | the value at the end of the rise is taken at its beginning; a row of a segment gets the lift wave drag of another row when subsonic rows come first; drag due to lift is negative just above βs/l = 0.178; Raymer's volume drag is three quarters of the Sears-Haack one |
| C136 | an undeflected flap reduces the maximum lift; a flap of type 'none' is double slotted; the affected area is divided by the vehicle's area and multiplied by the wing's area ratio again |
| C137 | the stall angle for the finite wing is computed and not used, so for every aspect ratio the maximum lift coefficient is not reached; the argument of the sine lacks a quarter turn, so drag at 90 degrees is not the maximum; the section's form factor uses a power for a product |
| C138 | detailed methods (FLOPS, Raymer) count the nacelle in propulsion and in structures; with two networks the propulsion items are those of the last; a network without engines keeps its nacelle |
| C139 | the masses of landing gear and crew are not written to the vehicle, so component masses fall short of the take-off mass |
| C140 | the factor for systems is never used; a structural factor erases the individual ones in the settings for good; the landing gear ignores it |
| C141 | the stored operating empty weight leaves out the operating items; the analysis for blended wing bodies calls its method with an argument too many |
| C142 | FLOPS payload adds cargo in pounds to kilograms; the systems total of FLOPS and Raymer is in pounds, the items in kilograms |
| C143 | with fewer passengers than coach seats the other classes are negative |
| C144 | the segmented wing uses the moment about the centre line instead of the station, and its bending weight grows with the square of span where the simple formula has the cube |
| C145 | a T-tail flag set to true (its default is a truth value) has no effect in the default tail; Raymer's tail takes the text "no" as true; without a tail arm the horizontal tail divides by zero; Raymer's starter and nacelle take kilograms for pounds |
| C146 | 'short_range' is compared where the type is 'short-range'; two fuselages raise an exception; the denominator of the complex method divides by 0.03 where it should add; taper to the fuselage side counts double; the two innermost intervals are left out |
| C147 | the engine's distance in the strut length is in feet instead of inches, for small nacelles the length is negative and the gear weight not a number; nacelles get no anti-icing because the key looked up does not exist |
| C148 | without fuel, horizontal tail or wing the light aircraft statement raises a NameError; a second evaluation fails because the fuel entry was replaced; the fuel system is left out of the empty weight; the span is passed as the horizontal tail's taper; without fuel mass the wing weighs nothing; furnishings are negative below 506 kg; flight controls hardly depend on weight (a factor applied as exponent); the pressurized volume is in cubic metres instead of feet; the gear's results are attributes of the class `Data`, shared by all calls |
| C149 | systems and fuel of light aircraft and blended wing bodies are not counted in the vehicle's mass; for the latter neither gear nor aft body |
| C150 | a blended wing body's nose gear is created as main gear and the other way round; a human-powered aircraft with a fuselage raises an AttributeError (`vehicle.Fuselages`) |
| C151 | the torque in the skin thickness is multiplied by the first interval of the stations: none is carried when two motors share the innermost place, as in the stopped-rotor example; motors listed with negative places lengthen the half wing beyond the root |
| C152 | the mass of the keel's box beam lacks a factor length |
| C153 | the blade's shear is summed with the inner value of every interval: with the default five stations and safety factor 1.5 the root carries less than the thrust; `seg[i][0::-1]` instead of `[0:-1]` takes all midpoints from the first point |
| C154 | one rotor standing for several identical ones counts once; a `Battery_Propeller` network with lift rotors and propellers, a vehicle without fuselage (which the code provides for) and a winged one without network raise exceptions; rotors, motors, battery, gear and contingency are missing from the component masses |
| C155 | convergence at the hundredth iteration is reported as failure; every propeller hub weighs a twenty-fifth of the take-off mass, so 23 propellers never converge |
| C156 | `estimate_landing_field_length` reads `config.landing_constants`, but there is no `config`; the bare `except` selects the default constants, so constants given by the user never count |
| C158 | `windmilling_drag` adds the wetted areas of all nacelles: with two engines the failed one is charged twice |
| C159 | `find_take_off_weight_given_tofl` saves and restores `max_takeoff`, which it never changed, and leaves `takeoff` at 1.1 times the maximum |
| C160 | the full point is flown at the maximum take-off weight even when empty weight plus payload is less, the point at zero range weighs nothing, a vehicle without payload has no diagram, and the mission's vehicle is left at its empty weight |
| C161 | the default `grid_points = 20.` is a float, which `range` refuses; the temperature offset changes only the stall speed; the power compared with that of drag is the shaft power of the propellers |
| C163 | price levels fall between 1920 and 1935; some hourly rates are negative before 1967 and all before 1963, as for the default year 0 |
| C164 | recurring labour and material are negative when fewer aircraft are produced than prototypes |
| C166 | the quality control of prototypes is part of both breakdowns; labour, material, engineering and tooling are not |
| C167 | facilities are distributed with the already multiplied tooling payments, giving dollars squared; a development of less than a year is truncated to none and never paid |
| C168 | `convert_sweep` uses the factor of a symmetric wing for single surfaces: the sweep of a fin comes out wrong |
| C169 | the extension moves the root sideways and down as well as forward, and uses the quarter-chord sweep for the leading edge |
| C170 | the aerodynamic centre uses the quarter-chord sweep as if it were that of the leading edge; for taper one of a symmetric wing the station is the tip |
| C171 | at exactly Mach one the section slope is 1, far below its value on either side |
| C172 | the incidence of a surface enters the zero-angle moment with the wrong sign, and section moments are not scaled by area |
| C173 | depth and height of the fuselage are those of the last one in the list |
| C174 | the downwash of the main wing is applied to the main wing itself; the neutral point of a lone wing is not where its moment slope vanishes |
| C175 | (callers) `Fidelity_Zero` passes I_z as the rolling inertia (line 202) and stores radians per second under names ending in Hz |
| C176 | one step of division does not factor the quartic: the phugoid is not a root |
| C177 | the damping is off by 2/ω², and with a stable spiral the spiral time is reported as the roll time |
| C178 | a vehicle with both masses given raises; `Cmu` is read from `Cm_q`; `MwDot` lacks a chord; the angle in degrees is used in radians for gravity; the inertia tensor is "rotated" entry by entry, losing the product of inertia; without an oscillation two arbitrary modes are dropped |
| C179 | at zero pitch or throttle 0/0; the speed difference subtracts the velocity vector from the speed |
| C181 | line 322 of Rotor.py has the wrong sign: with both cross-flow components the blades see a wrong speed; a nonuniform freestream alone drops the cross flow; swept blades raise an exception |
| C182 | with radial flow the induced velocity is not normal to the velocity at the disc, because the total speed includes the radial component |
| C184 | coefficients and efficiency are not reset at zero throttle, and keep the sign of the blades in reversed rotation |
| C186 | no negative stall; in the two-dimensional analysis the thickness is broadcast along the azimuth (wrong value, or an exception) |
| C189 | only control point 0 is filled; overlapping rotors overwrite each other; a wing given by the caller raises (unassigned index) |
| C190 | an infeasible design thrust is kept beside the power of the thrust that replaced it |
| C196 | the normal in the influence matrix is not of unit length on panels with both chordwise slope and dihedral; `CCNTL` is formed from `SCNTL` instead of the slope |
| C197 | `compute_RHS_matrix` returns inside the loop over the networks: only the slipstream of the first network counts |
| C200 | the tangent of the incidence is passed to sine and cosine as if it were the angle |
| C202 | a centre of gravity at longitudinal station zero is treated as not given; without a horizontal wing `z_mac` is unbound |
| C205 | the left half of an all-moving surface reuses the hinge vector of the right half and therefore moves oppositely; a hinge vector that is not of unit length stretches the surface; a vertical all-moving surface exchanges components of its stored hinge vector on every call |
| C208 | the control line of twisted cambered wings uses the height of another point (`zeta_a2`, `zeta_b1`) |
| C213 | `aero_coeff` gives each piece of the outline the pressure of its first point, so a symmetric section at zero incidence gets lift |
| C218 | the maximum thickness reported is the nominal one, which the thickness polynomial exceeds |
| C219 | the default section is requested as `['0012']`, read as the single number 12, and always raises an `IndexError` |
| C221 | section files: stations are compared as strings, so scientific notation puts almost all points on the lower surface; a name that begins with a digit, or an empty last line, raises an exception |
| C222 | the thickness pairs points of both surfaces by index, not by station |
| C223 | the laminar friction is reported as an absolute value, so separation is invisible |
| C224 | the turbulent shape factor is 3 below an entrainment shape factor of 3.3 but larger just above it, and undefined at 3.3 |
| C225 | the turbulent part uses the length behind transition to get the viscosity, the laminar part the whole length; the friction in the momentum equation leaves out the edge velocity |
| C226 | the weight of the second difference quotient is the whole interval, not its second part: the velocity gradient is first-order only |
| C227 | a single jump is never smoothed (`len(idx1) > 1`) |
| C228 | the transition panel is the number of panels below the criterion, wherever they are; the constant of Michel's criterion is ten times too large |
| C229 | the section drag uses the last panel only: the lower surface does not count |
| C231 | with a nozzle pressure loss the mass flow that leaves a rocket nozzle is less than the flow through its throat |
| C232 | the mass flow reported for a rocket network is that of one engine while its thrust is that of all |
| C233 | rocket sizing multiplies the mass flow of one engine by the number of engines; `planet` is unbound when conditions are given |
| C235 | fuel cell discharge ignores the number of cells of the stack |
| C238 | the power of a battery differs by the number of modules between the two sizing routes; the total number of cells is not updated |
| C239 | with a temperature offset the power of a piston engine jumps at its flat rating altitude |
| C240 | above the ceiling a positive power demand gives a negative throttle and positive fuel flow |
| C241 | piston network: one unknown speed but one residual per propeller; the mismatch warning uses a chained `!=`; the constant speed network returns the thrust of one engine with the fuel of all and applies the unit of speed twice to tip Mach |
| C242 | a cryocooler at 216.65 K for 10 K needs less than a Carnot machine; with a target above ambient it still draws power |
| C243 | saturated liquid at the inlet counts no heat of vaporization; the default temperatures divide by zero |
| C244 | the heat leak of an unpowered lead is stored under another name than it is read from; above the design current the search goes the wrong way |
| C245 | rotor supply losses are counted once per engine too often; the gearbox efficiency is used in sizing only; cryogen beyond the fuel flow is not taken off the mass |
| C246 | a dynamo supply ignores its own efficiency; the network counts rotor power three times |
| C247 | the second fuel rates are reset by every network that has them; a network without them afterwards, or without a rotation result, is a `KeyError` |
| C248 | an engine deck returns the thrust of one engine with the fuel of all |
| C249 | sizing divides the speed by the gear ratio, operation multiplies it; slack constraints are equations; the last fallback is an `IndexError` |
| C251 | expanding twice with two control points, or with `override`, turns arrays declared short into arrays of full length |
| C253 | the overcharge contingency of the user is overwritten; only the last of several batteries counts; a mission that starts with charging does not charge, or fails on an unbound name |
| C254 | descents at calibrated airspeed refer to the sea level density of the day, climbs to the standard one |
| C255 | the result of SLSQP is discarded; `isnan` is applied to a truth value, so nan constraints pass |
| C256 | the landing mass is overwritten by the takeoff mass or the mass left over; the incline of the ground is never used |
| C257 | a target of zero charge divides by zero |
| C67 | the loiter at constant dynamic pressure reads the density of the altitude the state held before |
| C259 | the induced angle uses the sine of the coefficient instead of that of the station, and sectional sums pair number with station; drag is negative for one sign of lift |
| C260 | root and tip twist are exchanged for wings without segments; a last segment short of the tip fails; a station on a boundary gets the root's values |
| C261 | `fromkeys` hands all wings one array; the drag of a wing is fitted to its lift |
| C263 | the third column of the aircraft's transonic drag is never filled; one supersonic Mach number fails |
| C267 | heights are moved along by the tangent of the Mach angle where the cotangent is meant |
| C268 | forward sweep raises a negative number to a fractional power |
| C269 | planes between leading and trailing edge take the root of a negative number |
| C270 | line 89 takes the lower end of the front spar along the slope of the upper end; tapered wings get too little volume; with the largest camber outside the spars the wrong half of the camber line is used |
| C275 | the dihedral effect is half of that of strip theory |
| C276 | damping in pitch takes the lift-curve slope of the wing, the lag of downwash the downwash of the tail |
| C277 | the roll time constant is computed from the yaw inertia; aircraft with inertia but without fin or tail raise an exception; the full equations are never reached |
| C278 | the third line is dropped whatever it is |
| C280 | the number of columns lacks the division by the chord |
| C281 | leaving a block of several contexts lets go of the contexts around it; a context without transformations makes a block within it an exception |
| C282 | subtraction of measurements adds the values; plain quantities cannot be added; measurements without error cannot be made |
| C283 | with exactly two readings no warning is given |
| C284 | fuselage sections use the ellipse radius at the parameter angle as if it were polar: wider than the ellipse between the axes |
| C285 | the scalars of every file begin with the first strip and panel of the vehicle or half; later wings of one half use the panel numbers of the first surface |
| C286 | root and tip lines have the same sense; wakes of one step or one ring are an exception |
| C287 | the trailing vortex of the first side of a surface is missing |
| C288 | propellers of a second network overwrite those of the first; all files of fuselages show the last; lift rotors and conditions are exceptions |
| C289 | the additive solver returns its last point, also where a recorded one is better |
| C290 | SLSQP rows compare scaled values with unscaled bounds; no bounds of variables are passed; the input table of the other set-ups is an exception |
| C292 | constraint entries stay divided by their scales; the problem is left at the upper bounds |
| C293 | the last design is returned, also where a sampled one is better |
| C294 | `check_svr_accuracy` by default leaves nothing out; else it predicts at the last point, whichever is left out |
| C295 | `arctan(z/y)` loses the side: left of the path the height enters the angle to the shaft with the wrong sign |
| C296 | the first station has the shape factors of wave number zero; loads by length are integrated over the relative radius, so the loading pressure depends on the unit of length |
| C297 | rotor origins, given backwards, are used as forwards; radii of sections are not used; attitude enters tones only |
| C298 | end sections count four times their half interval; azimuths are stretched to the full turn; boundary layer thicknesses stay in chords |
| C299 | silent bands count as zero decibels |
| C300 | near the engine the search for the primary source can jump for ever between two angles |
| C301 | exit densities are computed with stagnation pressures |
| C302 | the loop over the bands of the primary jet stops one short: the last band keeps its start value of zero decibels plus plug effects |
| C303 | the flight speed of the first control point is used at all steps |
| C304 | a misplaced parenthesis: the effect of the wing tends to a constant, not to zero, with the distance of the engine |
| C305 | the mixed jet has `log10((1+As)/Ap)` for `log10(1+As/Ap)`: it depends on the unit of area |
| C306 | a panel with anhedral is exported to the left, rising and with its sweep reversed, so that the mirrored wing has dihedral and is swept the other way; a wing given by segments has its sweep divided by the cosine of the dihedral, one without segments does not |
| C307 | the twist at the outer end is multiplied by the root chord; sections at breaks and at the tip carry no control surfaces unless an edge lies there, so that surfaces across a break vanish and surfaces to the tip stop short |
| C308 | a wing without segments and with a control surface that begins at the root raises IndexError |
| C310 | the run case file holds the sideslip in radians where AVL reads degrees; the deck corrects it only when trimming; the speed is always written as zero |
| C311 | a vehicle with both `mass` and `max_takeoff` raises "Specify Vehicle Mass", one with neither is given zero |
| C312 | deflections are numbered by list order, AVL numbers by position along the span |
| C313 | each wing is given the total lift times its area ratio: with a tail the sum exceeds the total |
| C314 | the saved training file holds the yaw derivative in place of the neutral point; the static margin is computed against all three coordinates of the centre of gravity |
| C315 | sections come back with the thickness of the segment inboard of them; the dihedral of a vertical wing changes sign |
| C316 | a surface that starts at the root cannot be written, one that ends at the tip cannot be read, one in the root cap is taken to start near the tip |
| C317 | a tank that reaches the tip, or any wing tank of a vehicle with a fuselage, raises |
| C319 | segment lengths of an imported fuselage are converted to metres twice |
| C320 | section angles are tangents of the slope instead of arctangents |
| C321 | the position of a fuselage tank does not count from the nose, and the search for it need not end |
| C323 | the diameter of a closed nacelle, the cowling angle and the cowling airfoil are not read back, and cowlings of 15 and 25 percent come back under one name; a stack of circles is read with √2 times their diameter |
| C324 | blade sweep is written in radians and read in degrees; the blade thickness is converted twice |
| C325 | every layer restarts from the pressure of the standard atmosphere, so cold air gets denser across a break; missions hand over the temperature deviation as the temperature |
| C326 | without `altitude_start` the climb raises instead of taking the altitude of the previous segment |
| C327 | a segment whose temperature deviation is `None` raises; the state of charge is not limited to one |
| C328 | the circulation of the blades is shifted by whole stations, so it is misplaced when the number of stations is no multiple of the number of blades; the shape of the wake uses the speed of each control point but the shift that of the first |
| C330 | the vertical drift has the sign of the flight speed instead of that of the air, and the lateral drift has the sign of the rotation |
| C331 | the contraction of the wake is a function of the distance behind the nose of the vehicle instead of that behind the rotor |
| C332 | the kernel is applied to each component of the velocity, so the velocity depends on the orientation of the axes |
| C334 | with `wake_settings.initial_timestep_offset` the angle of the blade is offset by steps of 2π/(Na+1) in the velocities and 2π/Na in the wake |
| C335 | a tolerance of one or more leaves the velocities unassigned and raises |
| C336 | arrays of a fresh wake are views of the same memory, so moving it (without a deep copy) moves it twice; the lift rotors of `Lift_Cruise` get the offset of the forward propellers |
| C337 | a wing given to `evaluate_slipstream` raises, because its index is never assigned |
| C338 | a rotor with more azimuthal stations than the external inflow raises; `Rotor_Wake_Fidelity_Two.evaluate` also has another signature than the call in `Rotor.spin` |
| C339 | the mass flow of a ducted fan at another condition is not that of equal corrected flow: the thrust element keeps the stagnation state of the sizing, so the mass flow is the same everywhere; engines changed after sizing are ignored; `evaluate_thrust` before `size` raises |
| C340 | the HTS networks take the thrust power (thrust times speed) for the power of the motors, which is zero at rest |
| C341 | `conditions` given to a sizing function: `planet` is then unbound and the function raises |
| C342 | a turbojet with active afterburner is sized without it and delivers another thrust at the design point |
| C343 | the dynamo network adds the powers at rotor, dynamo and dynamo supply, which contain each other, and so asks for more than was sized |
| C344 | `converge_root` keeps the solution of the root finder only in a local variable: when the last trial was not the solution, the segment is left at that trial though marked as converged |
| C346 | the mission report shows times of a day and more modulo 24 h, counts additional fuel twice in the total, and takes the range along x only |
| C348 | the engine data report leaves the speed of sound zero in the conditions, so networks that use it print no thrust |
| C349 | the parasite drag report takes its rows from a new analysis with default settings, and divides the drag of nacelles with several origins though it was computed once |
| C351 | `approach_noise` sets a flag in the settings that neither `flyover_noise` nor `sideline_noise` resets; these then use the approach microphone |
| C352 | the number of control points is changed after the mission was evaluated and the mission is not evaluated again |
| C353 | without a surface named FarField the geometry file bounds the volume by a surface −1 that does not exist |
| C354 | `SU2_Euler` does not pass its `half_mesh_flag` to the solver object, so a full mesh gives twice the coefficients |
| C355 | the default training Mach numbers of `SU2_inviscid_Super` are all above one; the subsonic surrogate is fitted to no points and raises |
| C356 | the wave drag at Mach 1.05 always uses the default slices; `compressibility_drag_total` calls `drag_div` with one argument too many and never returns |
| C357 | the centre of gravity of a fuel tank of several parts is averaged without their masses |
| C358 | a value whose text is `{}` cannot be told from an empty dictionary in the saved tree |
| C360 | the tangential inflow from a nonuniform free stream has the opposite sign to that of the vortex wake; speeds of several control points are spread over the azimuths or raise |
| C362 | `set_sources` does not set the flag for custom settings in the first section of a wing whose first segment is off the root: it raises, or takes the flag of the wing before; a wing with a single segment at the root gets no source at the tip |
| C363 | both fuselages read from a mirrored geometry get the wetted area of the pair |
| C364 | `vsp_read` with a given network of any other tag drops all rotors |
| C365 | `write` with `verbose=False` writes no wings, and raises if there is a main wing |
| C366 | `mach_slices` places slices by the tangent of the Mach angle where it should be the cotangent |
| C367 | the estimate is negative for short wings with much lift; the aspect ratio from span and area is never used as the attribute always exists (zero by default), and the ratio is then negative for any lift |
| C368 | a table at sea level only divides by its largest altitude, zero |
| C370 | radial velocities are written as zero; a single point in flat arrays raises |
| C371 | `generate_nacelle_points` multiplies a plain nacelle by its length twice (drawn to the square of its length); with an airfoil all stations are at its trailing edge |
| C372 | `get_blade_coordinates` loses the number of the blade to the loop over airfoils: all blades of a rotor with airfoils are drawn at one place, or an error is raised with more airfoils than blades |
| C372 | `get_blade_coordinates` does not turn the mid chord alignment with the sense of rotation: a swept rotor that turns the other way is not drawn as the mirror image |
| C373 | `plot_fuel_use` mixes two counts when only some segments use an additional fuel |
| C374 | `plot_tiltrotor_conditions` leaves out the pitch of the aircraft, the sign of the thrust, backward flight and hover |
| C375 | the nominal C-rate refers to the fullest point of each segment |
| C376 | `read_results` overwrites rate derivatives in stability axes with those in body axes, except those of the lift |
| C377 | `write_avl_airfoil_file` drops the middle and the last point; names clash or are cut |
| C378 | rounded items do not add up to the rounded total |
| C381 | `compute_voltage` of the NMC cell limits charge and temperature in the arrays it is given: out of range values in the mission conditions are overwritten |
| C382 | the NMC cell counts at most 8 A, and none of a current against the direction of the segment, into its charge throughput |
| C383 | the NMC cell current is reported limited to 8 A; an empty NMC battery keeps its voltage (the line clearing it comes too late); the growth of its resistance is not used |
| C384 | the heat fractions of an NMC cell at rest are 0/0; losses are negative when the current reverses |
| C385 | recharging a generic lithium ion battery applies the fade to the capacity already faded; the NMC one ignores its fade until the first recharge |
| C386 | the two ends of the control line of a cambered panel are taken at different places in the chord, so they differ when the section is twisted |
| C387 | a section uses the airfoil of its inner end only: a step remains where the airfoil changes |
| C389 | `make_x_z_reflection` does not turn twist (or camber) around: a twisted fin and its reflection are twisted to the same side |
| C391 | control surfaces of a fin inclined by more than a right angle are put on its other side |
| C392 | `cx_alpha` subtracts the slope of the lift where the slope of the drag belongs |
| C396 | the cosine stations of a body stop short of its half width: the plate is narrower than the fuselage by the factor cos(π/(2(2n+1))) |
| C397 | a single nacelle off the plane of symmetry is cut in half: one half at its place, the other mirrored to the other side |
| C398 | the tables of copper are in W/(cm K) and S/cm, the constants in SI units: leads come out a hundred times too heavy |
| C399 | `call_avl` purges the letters of the log name instead of the log: old logs stay and grow, files with one-letter names are removed; the exit status of AVL is dropped |
| C400 | control surfaces overlapping on the same edge are not refused if the second ends outside the first; its outer cut is lost |
| C401 | `compute_dR_dpsi` leaves out the chord of the blade and, in the tip loss, the factor R/r; it is the derivative for one chord at most (it is not passed to the solver at present) |
| C402 | `big_integral` continues the thickness of a panel in a straight line to the tip: if it is used up before, the bending weight of the panel is negative; panels of constant thickness but changing chord divide by zero |
| C403 | a tip chord that contradicts the taper is dropped silently |
| C405 | the copies of segments have no control surfaces, so the check for them never fires and they are dropped silently; wings without segments are not checked at all |
| C406 | a misplaced bracket in `Surrogate_Problem.compute`: constraints that are nan are never reported as failures |
| C407 | `add_lift_unknowns_and_residuals_to_segment` fails (`n_props` unbound) if propellers are not identical; it deletes the throttle that a hover segment reads; transition segments have no throttle; `assert('text')` never fires |
| C409 | negative side: with a rough gust beyond the limit the cruise gust is left off the envelope; positive side: with a rough gust beyond the limit and a cruise gust within it the envelope dips below the manoeuvre limit at the cruise speed |
| C411 | the detailed FLOPS wing corrects the sweep of a panel with the difference of chords of the panel inboard of it, not divided by its width: the sweep of a tapered wing depends on the width of the fuselage; engines listed on the right only are an index error |
| C412 | an engine inboard of the innermost station used gives an infinite moment |
| C413 | the crossing of zero lift is looked for at the least positive lift coefficient, which after stall can be elsewhere; a polar without exactly one entry at 0 and at 4 degrees fails |
| C414 | data that start below -14 degrees, or not at a whole degree, are an index error in `apply_pre_stall_data` |
| C415 | `fuselage_weight_Raymer` is nan for fuselages shorter than 1.7 diameters, `tail_horizontal_Raymer` for canards, `landing_gear_Raymer` beyond 25000 nmi; `nacelle_Raymer` takes the engine weight in kilograms where the correlation wants pounds |
| C416 | `orientation_euler_angles` are the components of one rotation vector, not angles of successive rotations: with two of them not zero, or one of them and a tilt about another axis, the rotor or nacelle points elsewhere |
| C418 | after a failed inner solve `optimize` evaluates the corrected objective and constraints at the centre instead of the proposed point, so the ratio is one whatever the step does; with SLSQP the constraints in the predicted reduction are the uncorrected low-fidelity ones |
| C419 | `Segment_Container.append` compares the tag before it is normalised (a second `Root` is refused, a second `root` is not) and the completed name can be taken; `Rotor.append_airfoil` looks among the attributes of the rotor instead of its airfoils; `Nacelle.append_airfoil` files the airfoil as an attribute of the default airfoil, where nothing reads it |
| C420 | lists in lists are levelled, `None`, `{}` and `[]` look the same, a value looks like a key without value |
| C421 | without cargo the fuselage term of the furnishings is zero; fuselages shorter than 1.7 diameters give nan; an auxiliary power unit of 70 kg is added for every small aircraft against the comment |
| C422 | the folder looked for before the run is removed is always `avl_files`: files of earlier runs stay in a folder of another name, and the run fails if only `avl_files` is there; with stored results and files not kept the first Mach number deletes the results of the others |
| C423 | the rotor keeps the start angle and the lattice points of the last frame |
| C424 | for a trimmed aircraft flaps are set to zero and slats have no line at all: their deflections never reach AVL |
| C428 | an array without dimensions, such as `np.array(300.0)`, cannot be made a column: indexing it raises |
| C429 | what is labelled expected improvement is its logarithm, what is labelled its logarithm is the logarithm of that (and undefined below one), and the printed numbers have row and column exchanged, zeros before the diagonal |
| C431 | the ratio of specific heats of steam is constant while the specific heat rises: at 1500 K, the end of the fit, their gas constant is two fifths too large, and asking for a variable ratio changes nothing |
| C432 | extending a container by a list always raises, the loop runs over an undefined name; a dictionary is merged: an element under a name that is taken overwrites the former one instead of coming beside it, and one whose name begins with an underscore is dropped |
| C434 | `print_engine_output` prints thirteen numbers in a row below twelve headings: the weighted level has none |
| C435 | `noise_airframe_Fink` hands back one weighted level, of the last step but one, and raises an error for a single step; `noise_SAE` hands back the loudest weighted band instead of the sum |
| C436 | `write_vsp_fuselage` shows a blunt nose as a point; a fuselage of one segment raises an IndexError; without segments and without main wing a number is indexed, so the message about the missing wing is never given; sections within millionths of the nose end up elsewhere (with a warning) |
| C437 | `initialize_opt_vals` of the additive set-up names the constraints after the variables and raises an IndexError if there are more constraints than variables; in both set-ups a constraint with an unknown relation is silently left out if it is the last, and shifts the edges of those behind it into an IndexError if it is not |
| C438 | `plot_battery_cell_conditions` draws the charge throughput in the panel labelled current; `plot_stability_coefficients` draws the static margin as a fraction under a label in percent |
| C439 | at a laminar shape factor of exactly 1.1 `getH1` is infinite, which the test for nan in `heads_method` lets through |
| C440 | `airfoil_analysis` puts laminar panels before turbulent ones: where the flow is laminar again behind a turbulent panel, values are recorded on the wrong panels; a panel with exactly no velocity is on both surfaces and `concatenate_surfaces` fails |
| C441 | `make_header_text` multiplies the axis with the rotation for body axes: the normal of a rotor toed by an angle is written toed by the opposite angle |
| C443 | specific power is the specific energy in joules per kilogram divided by the capacity in ampere-hours: a pack of the supplied cells is given 12960 W per cell, more than fifty times what its voltage and resistance allow |
| C444 | the generic lithium ion battery multiplies the current of the whole pack with the resistance of one cell: with numbers of cells in series and in parallel that differ its heat and voltage loss are not those of its cells |
| C445 | `propeller_single_point` reports the first component of the thrust vector as total thrust: a lift rotor has none, a tilted rotor too little |
| C446 | `segment.analyses.extend(analyses)` sets entries to `None` that the other container lacks, and merges contents into a present analysis instead of replacing it, so that its class stays |
| C447 | the upper limit of the propeller panels is multiplied by 1.1 also when negative, which hides the largest values; the first ageing panel draws the charge throughput over the label of a time, and all draw the fraction left where the label says percent lost |
| C448 | `propeller_mid_fidelity` looks for nan of the weighted spectrum in the plain one, which line 83 has just cleared of them: the weighted level of the rotors is nan as soon as one band is; in the plain one a missing band is 0 dB and not silence |
| C449 | the column `Mach` of `print_propeller_output` holds the speed in m/s |
| C450 | `expand_sub_segments` replaces the expansion of each segment by `skip` for good: a mission evaluated once keeps its number of control points whatever is set afterwards |
| C451 | `plot_surface_pressure_contours` and `create_video_frames` count two surfaces for every wing, also for one that is not symmetric: with two fins the wrong surfaces are left out, or an `IndexError` is raised |
| C452 | the panels of `create_video_frames` have fixed limits: flights of other aircraft than a 70 t airliner lie outside |
| C453 | `plot_lift_distribution` has five line styles: with six surfaces, such as three symmetric wings, it raises an `IndexError` |
| C454 | the noise figures size their table by the first segment: longer segments are cut off, shorter ones raise an `IndexError`; segments with `battery_discharge = False` count as 0 dBA |
| C455 | `plot_flight_profile_noise_contours` divides the ground by a nautical mile and draws aircraft and buildings in metres in the same axes, with the second coordinate of the aircraft left at zero; `plot_ground_noise_levels` shows ranges relative to the start of the mission |
| C457 | `plot_airfoil_surface_forces` draws the pressure of the panel between points k and k+1 at point k, half a panel away; cases whose angle and Reynolds number agree to a hundredth of a degree and of a million share one window |
| C458 | `plot_airfoil_polars` draws angles in radians over an axis named "Alpha (deg)"; its calls of `grid()` switch the grid over once for each polar, so that it is not seen with an even number |
| C459 | `compute_aero_derivatives` names its results by the key of the control surface only: a flap on each of two wings leaves the derivative of the second; with a surrogate the moment derivatives of all control surfaces are stored as zero |
| C460 | `Air`, `CO2` and `Steam` keep `composition.gas = 1.0` from `Gas`: their fractions add to two; `Composition.__check__` calls a method `swap` that does not exist and is called by nothing |
| C461 | `Aviation_Gasoline` has no `energy_density` (0 J/m3); `JP7` has a freezing point of 514 K, above its flash point of 333 K |
| C462 | after `fuselage_correction` the `lift_breakdown.total` of `Vortex_Lattice` stays uncorrected; wings with tags such as `Main Wing` end the training of the vortex lattice surrogate with a key error; `SU2_inviscid` writes wing entries for `main_wing` only, so that induced and compressibility drag raise for any other wing; `SU2_inviscid_Super` writes into `inviscid_wings_lift`, which nothing creates |
| C463 | `Supersonic_OpenVSP_Wave_Drag` names `Methods.Drag.induced_drag_aircraft`, which does not exist; the exception is dropped, and the analysis has no induced, miscellaneous, untrimmed, trimmed or total drag; its `initialize` reads settings that are not there and passes six arguments of seven |
| C464 | `SU2_Euler_Super` uses the supersonic `compressibility_drag_total` without any of the seven settings it reads (`begin_drag_rise_mach_number` and others); `Supersonic_OpenVSP_Wave_Drag` lacks `recalculate_total_wetted_area` and the drag rise Mach numbers |
| C465 | the descent `Constant_CAS_Constant_Rate` has the default `calibrated_airspeed`, but its initialisation reads `calibrated_air_speed`: it raises with its defaults, and the speed given under the documented name does not count |
| C466 | `Turbofan.evaluate_thrust` looks for `self.Shaft_Power_Off_Take` inside `try`/`except: pass`; `append` makes all names lower case, so an appended off-take is never found and silently draws nothing |
| C467 | `Buildups/Common/wing.py` reads ribs and webs from `wing.rib_materials` and `wing.spar_materials` but the rest from `wing.materials`, and calls `covering` what `prop.py` calls `cover`; `fuselage.py` reads bolts from `fuse.materials` and keel, skin and canopy from the fuselage itself: given elsewhere they are silently replaced by defaults |
| C468 | `Buildups/Common/wing.py` 308 calls `np.interp` on the upper side, whose abscissae decrease; numpy then returns the last value, the one just behind the nose, and the web comes out too low. In `prop.py` 253 a web that `round(…,2)` moves off the stations raises `IndexError` |
| C469 | `Buildups/Common/wing.py` 266 sums the distances between consecutive corners without closing the box: the rear web is missing from the skin that carries torsion |
| C470 | `minimum_width` is read of the material of ribs, but only `Aluminum_Rib` has it: any other solid given for ribs raises `AttributeError`; `Copper` leaves its thickness and strengths `None` |
| C471 | a wing that is not symmetric replaces the pressures in the caller's results by their first row, so a symmetric wing after it raises, the third such wing raises, and a vehicle with a symmetric wing and a fin cannot be saved twice with the same results |

## Axioms of each theorem

From `#print axioms` on every theorem in MANIFEST.json.

### no axioms (15)

`Mission.Merge.C34_columns_counterexample`, `IO.Redirect.C48_reentered_counterexample`, `IO.Redirect.C48_reused_counterexample`, `IO.Redirect.C48_closed_counterexample`, `Mission.C62_initialize_counterexample`, `IO.Folder.C84_missing_counterexample`, `IO.Folder.C84_same_folder_counterexample`, `Weights.C141_bwb_counterexample`, `Weights.C150_gear_counterexample`, `IO.C420_shown`, `Mission.C427_none`, `Core.TwoDim.C428_bare_counterexample`, `Core.C432_other`, `IO.FlightFigures.C451_fins_counterexample`, `Aero.Steps.C464_wave_counterexample`

### `propext` (40)

`Core.C02_update_wf`, `Core.C03_deepGet_iff`, `Core.C04_indexed_get_fails`, `Core.C04_counterexample`, `Core.C10_broadcast_counterexample`, `Nexus.C13_skip_iff`, `Nexus.C14_rerun_partial`, `Nexus.C14_force`, `IO.C43_numpy_scalar_counterexample`, `IO.C43_tuple_counterexample`, `IO.C43_list_of_arrays_counterexample`, `IO.History.C51_unconstrained_counterexample`, `Vehicle.C82_counterexample`, `Rotor.C189_wing_counterexample`, `Energy.Rocket.C233_conditions_counterexample`, `Energy.Rocket.C233_altitude_partial`, `Mission.C255_result_counterexample`, `Mission.C255_result_partial`, `Units.C283_two_readings_counterexample`, `IO.Vtk.C285_lift_counterexample`, `IO.Vtk.C285_fin_counterexample`, `IO.Vtk.C285_pressure_counterexample`, `Mission.Converge.C344_consistent`, `Mission.Converge.C344_solution_partial`, `IO.External.C353_far_counterexample`, `IO.External.C358_tree_partial`, `IO.C399_purge`, `IO.C420_only`, `IO.C420_order`, `IO.C420_same_counterexample`, `IO.C422_other_folders`, `Core.C432_list_counterexample`, `Core.C432_same_name_counterexample`, `Mission.Analyses.C446_extend_partial`, `Mission.Analyses.C446_extend_counterexample`, `Aero.Steps.C463_all`, `Aero.Steps.C463_steps_partial`, `Aero.Steps.C463_order`, `Aero.Steps.C463_needed`, `Mission.SegmentParameters.C465_flight`

### `Quot.sound`, `propext` (92)

`Core.C01_update_takes`, `Core.C01_update_keeps`, `Core.C01_update_private`, `Core.C01_update_nested`, `Core.C01_update_idempotent`, `Core.C02_update_keys`, `Core.C02_update_error`, `Core.C03_deepSet_spec`, `Core.C03_deepSet_error`, `Core.C03_deepSet_twice`, `Core.C07_pack_length`, `Core.C11_base_edit_propagates`, `Core.C11_override_survives`, `Core.C11_addition_survives`, `Core.C12_deletion_never_survives`, `Core.C12_deletion_becomes_none`, `Nexus.C13_transparent`, `Nexus.C13_count`, `Nexus.C14_counterexample`, `Nexus.C15_unpack`, `Nexus.C15_length_error`, `Nexus.C15_none`, `Nexus.C17_setValues_partial`, `Nexus.C17_star`, `Nexus.C17_getValues_partial`, `Nexus.C17_write_read`, `Optim.C20_decision`, `Optim.C20_decision_total`, `Optim.C20_iteration`, `Optim.C21_monotone`, `Optim.C22_all_evaluate_last`, `Optim.C22_single_partial`, `Optim.C22_same_quantity_partial`, `Optim.C22_equality_first`, `Optim.C23_values`, `Num.C24_errors`, `Num.C28_fill`, `Mission.C32_sequential`, `Mission.C32_results`, `Mission.Merge.C34_unpack_partial`, `Mission.Merge.C34_roundtrip_partial`, `IO.C43_empty_counterexample`, `IO.Xml.C44_from_dict`, `IO.Redirect.C48_restored_partial`, `IO.Redirect.C48_scoped`, `IO.History.C51_text`, `IO.History.C51_round_trip_partial`, `IO.History.C51_scale_counterexample`, `Nexus.C53_cost`, `Nexus.C53_design_point_moved`, `Optim.C55_converged_partial`, `Optim.C58_surrogate_drops_equality`, `Optim.C59_objective_partial`, `Optim.C59_constraints_ignored`, `Mission.C62_compile_finalize_partial`, `Vehicle.C82_placed_partial`, `IO.Folder.C84_pull`, `IO.Folder.C84_push`, `IO.Folder.C84_restored_partial`, `Energy.Piston.C241_unknowns_counterexample`, `Energy.Piston.C241_warning_counterexample`, `IO.Vtk.C288_files_partial`, `IO.Vtk.C288_networks_counterexample`, `IO.Vtk.C288_fuselages_counterexample`, `IO.Vtk.C288_exceptions_counterexample`, `Vsp.Vehicle.C365_write_partial`, `Vsp.Vehicle.C365_quiet_counterexample`, `IO.Tables.C376_strips`, `IO.Tables.C376_surfaces`, `IO.Tables.C376_controls`, `Vlm.C404_copy`, `Vlm.C404_exists`, `Vlm.C404_read`, `Energy.C407_distinct_counterexample`, `IO.C422_default_partial`, `IO.C422_name_counterexample`, `IO.C422_stored_counterexample`, `Mission.C427_sequential`, `Mission.C427_results`, `Core.TwoDim.C428_same`, `Core.TwoDim.C428_rows`, `Core.TwoDim.C428_stack`, `Core.C432_dict_partial`, `Mission.Analyses.C446_append`, `IO.FlightFigures.C452_frames_partial`, `Aero.Steps.C463_defaults`, `Aero.Steps.C463_wave_counterexample`, `Aero.Steps.C463_initialise_counterexample`, `Mission.SegmentParameters.C465_values_partial`, `Mission.SegmentParameters.C465_counts_partial`, `Mission.SegmentParameters.C465_descent_counterexample`, `Mission.SegmentParameters.C465_ignored_counterexample`

### `Classical.choice`, `Quot.sound`, `propext` (1982)

`Core.C04_indexed_set_partial`, `Core.C05_append_spec`, `Core.C05_append_noTag`, `Core.C05_append_history`, `Core.C05_norm_idempotent`, `Core.C06_containerAppend_spec`, `Core.C06_container_history`, `Core.C06_container_nodup`, `Core.C06_container_some_draw`, `Core.C06_container_draw_can_fail`, `Core.C07_unpack_pack`, `Core.C07_pack_unpack`, `Core.C07_unpack_surplus`, `Ordered.C08_refines`, `Ordered.C08_keys_nodup`, `Ordered.C08_key_order`, `Ordered.C08_index`, `Ordered.C09_append_overwrites`, `Ordered.C09_counterexample`, `Ordered.C09_append_history_partial`, `Core.C10_store_pull`, `Core.C10_store_pull_vehicle`, `Nexus.C15_idempotent`, `Nexus.C16_inequality_meaning`, `Nexus.C16_inequality_partial`, `Nexus.C16_equality_meaning`, `Nexus.C16_equality_partial`, `Nexus.C16_counterexample`, `Nexus.C17_two_rows_counterexample`, `Nexus.C17_missing_row_counterexample`, `Nexus.C17_read_counterexample`, `Nexus.C18_difference_quotient`, `Nexus.C18_affine_exact`, `Optim.C19_value`, `Optim.C19_gradient_fd`, `Optim.C19_gradient_deriv`, `Optim.C20_box`, `Optim.C20_box_nonempty`, `Optim.C20_run_partial`, `Optim.C20_fallback_counterexample`, `Optim.C21_bounds`, `Optim.C21_reported_partial`, `Optim.C21_reported`, `Optim.C21_sentinel_counterexample`, `Optim.C22_counterexample`, `Optim.C22_equality_counterexample`, `Optim.C23_structure`, `Num.C24_stratified`, `Num.C24_within`, `Num.C24_center`, `Num.C25_constants`, `Num.C25_identity`, `Num.C25_nodes`, `Num.C25_nodes_increasing`, `Num.C26_chebyshev_exists`, `Num.C26_first`, `Num.C26_integrate_derivative`, `Num.C26_derivative_integral`, `Num.C26_time_scaled`, `Num.C26_exact_integral`, `Num.C27_exact`, `Num.C28_bilinear`, `Num.C28_node`, `Num.C28_between`, `Num.C28_grid_line`, `Num.C29_outside`, `Num.C29_range`, `Num.C29_antitone`, `Num.C29_derivative`, `Num.C29_flat_ends`, `Num.C29_continuous`, `Num.C30_ge_max`, `Num.C30_le_max_add`, `Num.C30_sharp`, `Num.C30_symmetric`, `Num.C30_monotone`, `Physics.C31_layer`, `Physics.C31_breaks`, `Physics.C31_outside`, `Physics.C31_inside`, `Physics.C31_continuous`, `Physics.C31_continuous_altitude`, `Physics.C31_positive`, `Physics.C31_pressure_at_break`, `Mission.C32_calls`, `Mission.C33_shift`, `Mission.C33_first`, `Mission.C33_chain`, `Mission.C33_length`, `Mission.C33_functions`, `Mission.C33_throttle_climb`, `Mission.C33_ground_track`, `Mission.Merge.C34_merged_partial`, `Mission.Merge.C34_merged_missing_partial`, `Mission.Merge.C34_rows`, `Mission.Merge.C34_merged_counterexample`, `Mission.Merge.C34_shape_counterexample`, `Mission.Merge.C34_container_partial`, `Mission.Merge.C34_container_counterexample`, `Mission.C35_mass`, `Mission.C35_two_fuels`, `Mission.C35_exact`, `Mission.C35_decreasing`, `Energy.C36_soc`, `Energy.C36_capacity_partial`, `Energy.C36_start`, `Energy.C36_discharge_counterexample`, `Energy.C36_mixed_counterexample`, `Geometry.C37_trapezoid_partial`, `Geometry.C37_location_partial`, `Geometry.C37_location_counterexample`, `Geometry.C37_flap`, `Geometry.C38_area_mac`, `Geometry.C38_centre`, `Geometry.C39_panel_partial`, `Geometry.C39_total_partial`, `Geometry.C39_counterexample`, `Geometry.C39_root_flap_counterexample`, `Geometry.C39_all_surfaces`, `Mission.Frames.C40_rotation`, `Mission.Frames.C40_transpose`, `Mission.Frames.C40_compose`, `Mission.Frames.C40_length`, `Mission.Frames.C40_single`, `Vehicle.C41_extremes`, `Vehicle.C41_masses`, `Vehicle.C42_mass_partial`, `Vehicle.C42_cg_partial`, `Vehicle.C42_range_partial`, `Vehicle.C42_position`, `Vehicle.C42_nested_counterexample`, `IO.C43_round_trip_partial`, `IO.Xml.C44_trimmed`, `IO.Xml.C44_round_trip_partial`, `IO.Xml.C44_stable`, `IO.Xml.C44_counterexample`, `Units.C45_multiply`, `Units.C45_round_trip_partial`, `Units.C45_divide_again`, `Units.C45_compose`, `Units.C45_offset`, `Units.C45_reuse_counterexample`, `Units.C45_kelvin_counterexample`, `Units.C45_delta_counterexample`, `Units.C46_layers`, `Units.C46_terminates`, `Units.C47_shortest`, `Performance.C49_positive`, `Performance.C49_user_partial`, `Performance.C49_user_categories`, `Performance.C49_negative`, `Performance.C49_heavy_counterexample`, `Performance.C49_light_counterexample`, `Performance.C49_sign_counterexample`, `Performance.C50_corners_partial`, `Performance.C50_small_tanks_counterexample`, `Performance.C50_zero_range_counterexample`, `Nexus.C52_translate_constraint`, `Nexus.C52_translate_objective_meaning`, `Nexus.C52_translate_objective_partial`, `Nexus.C52_translate_objective_counterexample`, `Ordered.C54_class_names_counterexample`, `Optim.C55_returns_rejected_counterexample`, `Optim.C56_violation_zero_iff`, `Optim.C56_forms_agree_partial`, `Optim.C56_counterexample`, `Optim.C57_best_seen_partial`, `Optim.C57_counterexample`, `Optim.C58_pyopt`, `Optim.C58_ipopt_partial`, `Optim.C58_ipopt_counterexample`, `Optim.C58_negative_scale_counterexample`, `Optim.C58_surrogate_inequality`, `Optim.C59_counterexample`, `Num.C60_linear_partial`, `Num.C60_counterexample`, `Physics.C61_hydrostatic`, `Physics.C61_decreasing`, `Physics.C61_gravity`, `Mission.C63_earlier_partial`, `Mission.C63_counterexample`, `Mission.C64_climb`, `Mission.C64_descent`, `Mission.C64_duration`, `Mission.C64_linear_altitude`, `Mission.C65_constant_partial`, `Mission.C65_integrated_partial`, `Mission.C65_counterexample`, `Mission.C66_cruise`, `Mission.C66_loiter`, `Mission.C66_hover_climb`, `Mission.C67_loiter_partial`, `Mission.C67_loiter_counterexample`, `Mission.C67_angle_partial`, `Mission.C67_stale_partial`, `Mission.C67_counterexample`, `Mission.C68_accelerate_partial`, `Mission.C68_throttle_partial`, `Mission.C68_nudge`, `Mission.C68_climbout_partial`, `Mission.C68_counterexample`, `Mission.C69_pitch_partial`, `Mission.C69_climbout_partial`, `Mission.C69_counterexample`, `Mission.C70_residuals`, `Mission.C70_pitch`, `Mission.C71_descent_partial`, `Mission.C71_climb_counterexample`, `Mission.C72_ground_partial`, `Mission.C72_counterexample`, `Energy.C73_throughput`, `Energy.C73_nmc`, `Energy.C73_health`, `Energy.C74_ambient_partial`, `Energy.C74_counterexample`, `Geometry.C75_agree_partial`, `Geometry.C75_wetted_counterexample`, `Geometry.C75_thickness_counterexample`, `Geometry.C76_reference_sum`, `Geometry.C76_exposed`, `Geometry.C76_segments`, `Geometry.C77_body_partial`, `Geometry.C77_network_iff`, `Geometry.C77_counterexample`, `Geometry.C77_vehicle_partial`, `Geometry.C77_reference`, `Geometry.C78_sum_partial`, `Geometry.C78_sum_counterexample`, `Geometry.C78_stable_partial`, `Geometry.C78_seats_counterexample`, `Geometry.C78_round`, `Mission.Frames.C79_angles`, `Mission.Frames.C79_total`, `Mission.Frames.C79_plane_partial`, `Mission.Frames.C79_counterexample`, `Mission.Frames.C79_roll_counterexample`, `Mission.Frames.C80_forces`, `Mission.Frames.C80_freestream`, `Mission.Frames.C81_latitude_partial`, `Mission.Frames.C81_east_counterexample`, `Mission.Frames.C81_degrees_counterexample`, `Vehicle.C83_single_partial`, `Vehicle.C83_two_networks_counterexample`, `Vehicle.C83_main_wing_partial`, `Vehicle.C83_hydraulics_counterexample`, `Performance.C85_cruise_partial`, `Performance.C85_dive`, `Performance.C85_counterexample`, `Performance.C86_points`, `Performance.C86_between`, `Performance.C86_ends`, `Performance.C87_positive`, `Performance.C87_negative_partial`, `Performance.C87_counterexample`, `Performance.C88_residual`, `Performance.C88_linear`, `Performance.C88_contraction`, `Energy.GasTurbine.C89_ram`, `Energy.GasTurbine.C89_ideal_inlet`, `Energy.GasTurbine.C89_inlet_speed`, `Energy.GasTurbine.C89_temperature_counterexample`, `Energy.GasTurbine.C90_combustor`, `Energy.GasTurbine.C90_combustor_share`, `Energy.GasTurbine.C90_fuel_positive`, `Energy.GasTurbine.C90_turbine`, `Energy.GasTurbine.C90_engine`, `Energy.GasTurbine.C90_afterburner_counterexample`, `Energy.GasTurbine.C90_reported_ratio_counterexample`, `Energy.GasTurbine.C91_subsonic_exit`, `Energy.GasTurbine.C91_pressure`, `Energy.GasTurbine.C91_isentropic`, `Energy.GasTurbine.C91_continuity`, `Energy.GasTurbine.C91_speed_iff`, `Energy.GasTurbine.C91_air_counterexample`, `Energy.GasTurbine.C92_momentum`, `Energy.GasTurbine.C92_fuel`, `Energy.GasTurbine.C92_fuel_nonneg`, `Energy.GasTurbine.C92_linear`, `Energy.GasTurbine.C92_isp`, `Energy.GasTurbine.C93_design_thrust_partial`, `Energy.GasTurbine.C93_engine_out`, `Energy.GasTurbine.C93_off_take_counterexample`, `Energy.GasTurbine.C94_stages`, `Energy.GasTurbine.C94_compressor_loss`, `Energy.GasTurbine.C94_turbine_loss`, `Energy.GasTurbine.C95_static_partial`, `Energy.GasTurbine.C95_stagnation_counterexample`, `Physics.Shock.C96_stagnation`, `Physics.Shock.C96_direction`, `Physics.Shock.C96_conserved`, `Physics.Shock.C97_range`, `Physics.Shock.C97_turns`, `Physics.Shock.C97_weak`, `Physics.Shock.C97_detached`, `Physics.Shock.C98_energy`, `Physics.Shock.C98_loss`, `Physics.Shock.C98_inlet`, `Physics.Shock.C99_conserved`, `Physics.Shock.C99_choking`, `Physics.Shock.C99_limited`, `Physics.Shock.C99_sonic`, `Physics.Shock.C100_area`, `Physics.Shock.C100_throat`, `Physics.Shock.C100_pressure`, `Energy.Scramjet.C101_burner_energy`, `Energy.Scramjet.C101_burner_momentum`, `Energy.Scramjet.C101_stagnation_counterexample`, `Energy.Scramjet.C101_nozzle`, `Energy.Scramjet.C101_ideal_nozzle`, `Energy.Scramjet.C101_mach`, `Energy.Scramjet.C101_inlet`, `Energy.Scramjet.C102_momentum`, `Energy.Scramjet.C102_fuel`, `Energy.Scramjet.C102_isp`, `Energy.Scramjet.C102_design`, `Energy.Scramjet.C102_frozen`, `Energy.Scramjet.C102_mass_flow_counterexample`, `Energy.Scramjet.C103_pressure`, `Energy.Scramjet.C103_isentropic`, `Energy.Scramjet.C103_velocity`, `Energy.Scramjet.C103_area`, `Energy.Scramjet.C103_mach_partial`, `Energy.Scramjet.C103_shock_counterexample`, `Electric.C104_balance`, `Electric.C104_forward`, `Electric.C104_unique`, `Electric.C104_throttle`, `Electric.C104_standstill_counterexample`, `Electric.C105_voltage_then_torque`, `Electric.C105_torque_then_voltage`, `Electric.C105_current`, `Electric.C106_power`, `Electric.C106_efficiency`, `Electric.C106_range`, `Electric.C106_gear`, `Electric.C106_windmill_counterexample`, `Electric.C107_efficiency`, `Electric.C107_highest`, `Electric.C107_reachable`, `Electric.C107_unreachable_counterexample`, `Electric.C107_no_load_counterexample`, `Electric.C107_power_lo`, `Electric.C108_voltage`, `Electric.C108_power_partial`, `Electric.C108_range_counterexample`, `Electric.C109_thrust`, `Electric.C109_power`, `Electric.C109_balance`, `Electric.C109_identical`, `Electric.C109_current_counterexample`, `Electric.C109_record_counterexample`, `Electric.C109_efficiency_counterexample`, `Electric.C109_negative_throttle_counterexample`, `Electric.C109_charging`, `Electric.C109_cell_power_counterexample`, `Electric.C109_cell_energy`, `Electric.C110_power`, `Electric.C110_thrust`, `Electric.C110_cruise`, `Electric.C110_hover`, `Electric.C111_speed`, `Electric.C111_power_partial`, `Electric.C111_torque_counterexample`, `Electric.C112_power`, `Electric.C112_charge`, `Electric.C112_current_counterexample`, `Electric.C112_low_partial`, `Electric.C112_over_counterexample`, `Electric.C113_power_partial`, `Electric.C113_over_counterexample`, `Electric.C113_idle_counterexample`, `Electric.C113_hybrid`, `Electric.C113_generator_counterexample`, `Sun.C114_range`, `Sun.C114_level`, `Sun.C114_attitude`, `Sun.C114_tilt`, `Sun.C114_high`, `Sun.C114_incidence_partial`, `Sun.C114_incidence_counterexample`, `Sun.C115_path_partial`, `Sun.C115_radius_counterexample`, `Sun.C115_altitude`, `Sun.C116_days`, `Sun.C116_hour`, `Sun.C116_turn_partial`, `Sun.C116_midnight_counterexample`, `Sun.C116_turn_counterexample`, `Noise.C117_energy`, `Noise.C117_order`, `Noise.C117_single`, `Noise.C117_groups`, `Noise.C117_bounds`, `Noise.C117_more`, `Noise.C117_shift`, `Noise.C117_equal`, `Noise.C117_flat_counterexample`, `Noise.C118_rotors_partial`, `Noise.C118_bounds_partial`, `Noise.C118_single_partial`, `Noise.C118_phantom_counterexample`, `Noise.C118_airframe_counterexample`, `Noise.C118_identical`, `Noise.C118_one_rotor`, `Noise.C118_different_counterexample`, `Noise.C118_rows_counterexample`, `Noise.C119_edges`, `Noise.C119_one_band_partial`, `Noise.C119_total_partial`, `Noise.C119_edge_counterexample`, `Noise.C119_silence_counterexample`, `Noise.C120_defined`, `Noise.C120_senel`, `Noise.C120_shift`, `Noise.C120_upper`, `Noise.C120_whole`, `Noise.C120_single_window`, `Noise.C120_integral_partial`, `Noise.C120_last_counterexample`, `Noise.C120_dip_counterexample`, `Noise.C121_range`, `Noise.C121_straight`, `Noise.C121_shift`, `Noise.C121_tone_partial`, `Noise.C121_band_counterexample`, `Noise.C121_twenty_counterexample`, `Noise.C121_first_partial`, `Noise.C121_history_counterexample`, `Noise.C122_value_partial`, `Noise.C122_nonneg`, `Noise.C122_double`, `Noise.C122_quiet`, `Noise.C122_monotone_partial`, `Noise.C122_gap_counterexample`, `Noise.C122_ten_decibels`, `Noise.C122_last_band`, `Noise.C123_shift`, `Noise.C123_upper`, `Noise.C123_agree`, `Noise.Mic.C124_ground`, `Noise.Mic.C124_spacing`, `Noise.Mic.C124_distinct`, `Noise.Mic.C124_building_partial`, `Noise.Mic.C124_walls`, `Noise.Mic.C124_resolution_counterexample`, `Noise.Mic.C124_base_counterexample`, `Noise.Mic.C125_relative`, `Noise.Mic.C125_elevation`, `Noise.Mic.C125_below`, `Noise.Mic.C125_aside`, `Noise.Mic.C125_points`, `Noise.Mic.C125_free_counterexample`, `Noise.Mic.C125_unchanged_counterexample`, `Noise.Cert.C126_monotone`, `Noise.Cert.C126_doubling`, `Noise.Cert.C126_engines`, `Noise.Cert.C126_regulation_partial`, `Noise.Cert.C126_light_counterexample`, `Noise.Air.C127_total_partial`, `Noise.Air.C127_fin_counterexample`, `Noise.Air.C127_distance`, `Noise.Air.C127_attenuation`, `Noise.Air.C127_slat`, `Noise.Air.C127_slat_shift`, `Noise.Air.C127_slat_counterexample`, `Noise.Air.C127_clean`, `Noise.Air.C127_retracted_counterexample`, `Noise.Air.C127_history_partial`, `Noise.Air.C127_last_counterexample`, `Noise.Air.C127_wheels_counterexample`, `Noise.Air.C127_wheels_partial`, `Noise.Air.C127_flap_joins_partial`, `Noise.Air.C127_flap_joins_counterexample`, `Noise.Air.C127_directivity`, `Noise.Air.C127_units_partial`, `Noise.Air.C127_units_counterexample`, `Noise.Air.C127_gear_partial`, `Noise.Air.C127_gear_counterexample`, `Noise.Air.C127_layer`, `Noise.Cert.C128_engines`, `Noise.Cert.C128_reference`, `Noise.Cert.C128_landing_reference`, `Noise.Cert.C128_landing`, `Noise.Cert.C128_weight`, `Noise.Cert.C128_thrust_partial`, `Noise.Cert.C128_thrust_counterexample`, `Aero.C129_turbulent`, `Aero.C129_laminar`, `Aero.C129_refused`, `Aero.C129_corrections`, `Aero.C129_decreasing`, `Aero.C129_laminar_less_partial`, `Aero.C129_laminar_less_counterexample`, `Aero.C130_wing`, `Aero.C130_wing_defined`, `Aero.C130_wing_counterexample`, `Aero.C130_wing_rest`, `Aero.C130_wing_drag`, `Aero.C130_wing_sides`, `Aero.C130_segments`, `Aero.C130_exposed_partial`, `Aero.C130_exposed_rectangle`, `Aero.C130_exposed_counterexample`, `Aero.C130_wetted`, `Aero.C130_body`, `Aero.C130_body_super`, `Aero.C130_body_super_continuous`, `Aero.C130_body_counterexample`, `Aero.C130_nacelle`, `Aero.C131_total`, `Aero.C131_entries`, `Aero.C131_total_counterexample`, `Aero.C131_pylon_partial`, `Aero.C131_pylon_counterexample`, `Aero.C132_main`, `Aero.C132_oswald`, `Aero.C132_parts_partial`, `Aero.C132_parts_counterexample`, `Aero.C132_span`, `Aero.C132_viscous_partial`, `Aero.C132_viscous_counterexample`, `Aero.C133_rise`, `Aero.C133_lift_partial`, `Aero.C133_lift_counterexample`, `Aero.C133_total`, `Aero.C134_total`, `Aero.C134_ratio`, `Aero.C134_monotone`, `Aero.C134_refused`, `Aero.C134_excrescence_partial`, `Aero.C134_excrescence_counterexample`, `Aero.C134_origins`, `Aero.C134_origins_counterexample`, `Aero.C134_windmilling`, `Aero.C134_misc_super`, `Aero.C135_continuous`, `Aero.C135_ends`, `Aero.C135_peak_partial`, `Aero.C135_peak_counterexample`, `Aero.C135_nonneg`, `Aero.C135_formulas`, `Aero.C135_raymer_sears`, `Aero.C135_lift`, `Aero.C135_lift_sign_partial`, `Aero.C135_lift_sign_counterexample`, `Aero.C135_rows_partial`, `Aero.C135_rows_counterexample`, `Aero.C135_helper`, `Aero.C135_helper_rows_partial`, `Aero.C135_helper_rows_counterexample`, `Aero.C136_flap_partial`, `Aero.C136_flap_counterexample`, `Aero.C136_names`, `Aero.C136_slat_partial`, `Aero.C136_slat_counterexample`, `Aero.C136_total`, `Aero.C136_flap_area_partial`, `Aero.C136_flap_area_counterexample`, `Aero.C136_reynolds`, `Aero.Aerodas.C137_pre_partial`, `Aero.Aerodas.C137_pre_line`, `Aero.Aerodas.C137_pre_odd`, `Aero.Aerodas.C137_pre_counterexample`, `Aero.Aerodas.C137_pre_drag`, `Aero.Aerodas.C137_post`, `Aero.Aerodas.C137_post_odd`, `Aero.Aerodas.C137_drag_partial`, `Aero.Aerodas.C137_drag_counterexample`, `Aero.Aerodas.C137_total`, `Aero.Aerodas.C137_lift_odd`, `Aero.Aerodas.C137_section`, `Aero.Aerodas.C137_plate`, `Aero.Aerodas.C137_section_counterexample`, `Weights.C138_surfaces`, `Weights.C138_systems`, `Weights.C138_totals`, `Weights.C138_once_partial`, `Weights.C138_detailed`, `Weights.C138_nacelle_counterexample`, `Weights.C138_networks_counterexample`, `Weights.C138_no_engines_counterexample`, `Weights.C139_masses_partial`, `Weights.C139_gear_counterexample`, `Weights.C140_structural`, `Weights.C140_individual`, `Weights.C140_repeat`, `Weights.C140_systems_counterexample`, `Weights.C140_settings_counterexample`, `Weights.C140_gear_counterexample`, `Weights.C141_stored_partial`, `Weights.C141_counterexample`, `Weights.C142_gear`, `Weights.C142_payload`, `Weights.C142_systems`, `Weights.C142_flops_partial`, `Weights.C142_cargo_counterexample`, `Weights.C142_systems_flops`, `Weights.C142_systems_flops_counterexample`, `Weights.C142_tanks`, `Weights.C143_attendants`, `Weights.C143_operating`, `Weights.C143_systems`, `Weights.C143_apu`, `Weights.C143_controls`, `Weights.C143_types`, `Weights.C143_classes_partial`, `Weights.C143_coach_counterexample`, `Weights.C143_flops`, `Weights.C143_operating_flops`, `Weights.C143_powered`, `Weights.C144_index`, `Weights.C144_index_mono`, `Weights.C144_tube`, `Weights.C144_wing_simple`, `Weights.C144_panel`, `Weights.C144_split`, `Weights.C144_wing_segmented`, `Weights.C144_moment`, `Weights.C144_bending_counterexample`, `Weights.C144_span_partial`, `Weights.C144_span_counterexample`, `Weights.C145_vertical`, `Weights.C145_flag_counterexample`, `Weights.C145_horizontal`, `Weights.C145_arm_counterexample`, `Weights.C145_engines`, `Weights.C145_installed`, `Weights.C145_nacelles`, `Weights.C145_flops`, `Weights.C145_starter_counterexample`, `Weights.C145_flag_raymer_counterexample`, `Weights.C145_sizes`, `Weights.C145_own_inputs`, `Weights.C146_relief`, `Weights.C146_bounds`, `Weights.C146_type_counterexample`, `Weights.C146_fuselages_counterexample`, `Weights.C146_engines_partial`, `Weights.C146_sweep_counterexample`, `Weights.C146_chord_counterexample`, `Weights.C146_stations`, `Weights.C146_area_partial`, `Weights.C146_area_counterexample`, `Weights.C146_composite`, `Weights.C146_thickness`, `Weights.C146_tailored_counterexample`, `Weights.C146_raymer`, `Weights.C147_strut_counterexample`, `Weights.C147_gear_counterexample`, `Weights.C147_gear_partial`, `Weights.C147_structures`, `Weights.C147_antiIce_counterexample`, `Weights.C147_sst`, `Weights.C148_defined_partial`, `Weights.C148_undefined_counterexample`, `Weights.C148_totals`, `Weights.C148_fuel_system_counterexample`, `Weights.C148_fuel_system_pos`, `Weights.C148_repeat_counterexample`, `Weights.C148_taper_counterexample`, `Weights.C148_monotone`, `Weights.C148_wing_counterexample`, `Weights.C148_furnish_counterexample`, `Weights.C148_control_counterexample`, `Weights.C148_volume_counterexample`, `Weights.C148_alias_counterexample`, `Weights.C148_thickness`, `Weights.C148_strict`, `Weights.C149_light_partial`, `Weights.C149_light_counterexample`, `Weights.C149_bwb_partial`, `Weights.C149_bwb_counterexample`, `Weights.C150_bwb`, `Weights.C150_bodies`, `Weights.C150_human_partial`, `Weights.C150_human_counterexample`, `Weights.C150_human_parts`, `Weights.C150_uav`, `Weights.C151_root`, `Weights.C151_lift`, `Weights.C151_decreasing`, `Weights.C151_positive`, `Weights.C151_monotone`, `Weights.C151_torsion_counterexample`, `Weights.C151_torsion_partial`, `Weights.C151_unloaded`, `Weights.C151_signed_counterexample`, `Weights.C151_thrust`, `Weights.C152_sphere`, `Weights.C152_wetted`, `Weights.C152_fuselage`, `Weights.C152_keel_counterexample`, `Weights.C152_wiring`, `Weights.C152_bulkheads`, `Weights.C152_motor`, `Weights.C153_shear_partial`, `Weights.C153_shear_counterexample`, `Weights.C153_terminates`, `Weights.C153_inertia_partial`, `Weights.C153_inertia_counterexample`, `Weights.C154_total`, `Weights.C154_batteries`, `Weights.C154_rotors`, `Weights.C154_identical_counterexample`, `Weights.C154_mixed_counterexample`, `Weights.C154_fuselage_counterexample`, `Weights.C154_network_counterexample`, `Weights.C154_components_partial`, `Weights.C154_components_counterexample`, `Weights.C154_wings`, `Weights.C155_success`, `Weights.C155_converges`, `Weights.C155_accuracy`, `Weights.C155_fails`, `Weights.C155_hubs_counterexample`, `Weights.C155_last_counterexample`, `Performance.C156_stall_speed`, `Performance.C156_landing_linear`, `Performance.C156_landing_mono`, `Performance.C156_landing_constants_counterexample`, `Performance.C157_length`, `Performance.C157_no_engine`, `Performance.C157_mono`, `Performance.C157_engines`, `Performance.C158_gradient`, `Performance.C158_asymmetry`, `Performance.C158_windmilling_partial`, `Performance.C158_windmilling_counterexample`, `Performance.C159_weight`, `Performance.C159_enough`, `Performance.C159_estimate`, `Performance.C159_restores_partial`, `Performance.C159_restores_counterexample`, `Performance.C160_points_partial`, `Performance.C160_weights_counterexample`, `Performance.C160_left_counterexample`, `Performance.C161_climb`, `Performance.C161_power`, `Performance.C161_grid_partial`, `Performance.C161_default_counterexample`, `Performance.C161_hot_day_counterexample`, `Performance.C162_best`, `Performance.C162_endurance`, `Performance.C162_no_speed`, `Costs.C163_escalation`, `Costs.C163_prices_rise`, `Costs.C163_unit`, `Costs.C163_prices_counterexample`, `Costs.C163_rates_partial`, `Costs.C163_rates_counterexample`, `Costs.C164_totals`, `Costs.C164_kinds`, `Costs.C164_interior`, `Costs.C164_nonneg_partial`, `Costs.C164_nonneg_counterexample`, `Costs.C165_learning`, `Costs.C166_once_partial`, `Costs.C166_quality_counterexample`, `Costs.C167_years`, `Costs.C167_distributed_partial`, `Costs.C167_nonneg`, `Costs.C167_facilities_counterexample`, `Costs.C167_short_counterexample`, `Stability.C168_convert`, `Stability.C168_same`, `Stability.C168_range`, `Stability.C168_further_back`, `Stability.C168_segments`, `Stability.C168_segments_back`, `Stability.C168_fin_counterexample`, `Stability.C168_fin_effective`, `Stability.C169_root`, `Stability.C169_span`, `Stability.C169_area`, `Stability.C169_aspect`, `Stability.C169_no_offset`, `Stability.C169_origin_counterexample`, `Stability.C169_leading_edge_partial`, `Stability.C169_leading_edge_counterexample`, `Stability.C170_mac`, `Stability.C170_mac_bounds`, `Stability.C170_mac_given`, `Stability.C170_station`, `Stability.C170_untapered_counterexample`, `Stability.C170_untapered_single`, `Stability.C170_ac_partial`, `Stability.C170_ac_counterexample`, `Stability.C170_ac_error`, `Stability.C171_bounds`, `Stability.C171_below_section`, `Stability.C171_rises`, `Stability.C171_falls`, `Stability.C171_sonic`, `Stability.C171_sonic_counterexample`, `Stability.C172_cg_shift`, `Stability.C172_aft_unstable`, `Stability.C172_neutral_unique`, `Stability.C172_fins`, `Stability.C172_order`, `Stability.C172_tail`, `Stability.C172_linear`, `Stability.C172_incidence_counterexample`, `Stability.C172_incidence_sign`, `Stability.C172_section_moment_counterexample`, `Stability.C173_factor_bounds`, `Stability.C173_factor_mono`, `Stability.C173_factor_continuous`, `Stability.C173_fin_arm`, `Stability.C173_fin_sign`, `Stability.C173_no_fuselage`, `Stability.C173_order_partial`, `Stability.C173_order_counterexample`, `Stability.C174_margin_sign`, `Stability.C174_neutral_partial`, `Stability.C174_lone_wing_counterexample`, `Stability.C174_neutral_moves`, `Stability.C175_phugoid`, `Stability.C175_short_period`, `Stability.C175_dutch_roll`, `Stability.C175_roll`, `Stability.C175_spiral`, `Stability.C176_characteristic`, `Stability.C176_degree`, `Stability.C176_leading_partial`, `Stability.C176_split_counterexample`, `Stability.C177_characteristic`, `Stability.C177_degree`, `Stability.C177_reciprocals`, `Stability.C177_frequency`, `Stability.C177_damping_value`, `Stability.C177_mixed_up_counterexample`, `Stability.C177_unstable_spiral_partial`, `Stability.C178_longitudinal`, `Stability.C178_lateral`, `Stability.C178_mode`, `Stability.C178_real_modes`, `Stability.C178_classification`, `Stability.C178_no_oscillation_counterexample`, `Stability.C178_mass_counterexample`, `Stability.C178_mass_partial`, `Stability.C178_units_partial`, `Stability.C178_units_counterexample`, `Stability.C178_derivatives`, `Stability.C178_speed_moment_counterexample`, `Stability.C178_gravity_counterexample`, `Stability.C178_gravity_partial`, `Stability.C178_inertia_counterexample`, `Stability.C178_inertia_partial`, `Stability.C179_affine`, `Stability.C179_quadratic`, `Stability.C179_zero_counterexample`, `Stability.C179_speed_partial`, `Stability.C179_speed_counterexample`, `Rotor.C180_trapezoid`, `Rotor.C180_azimuth`, `Rotor.C180_axisymmetric`, `Rotor.C180_linear`, `Rotor.C180_widths`, `Rotor.C180_bounds`, `Rotor.C180_no_rotor_drag`, `Rotor.C180_rotor_drag_sign`, `Rotor.C181_crossflow_partial`, `Rotor.C181_crossflow_error`, `Rotor.C181_crossflow_counterexample`, `Rotor.C181_mean`, `Rotor.C181_axial`, `Rotor.C181_guard`, `Rotor.C181_speed`, `Rotor.C181_nonuniform`, `Rotor.C181_nonuniform_counterexample`, `Rotor.C181_swept_counterexample`, `Rotor.C182_orthogonal`, `Rotor.C182_velocities`, `Rotor.C182_complete`, `Rotor.C182_radial`, `Rotor.C182_orthogonal_counterexample`, `Rotor.C182_converged`, `Rotor.C182_unloaded`, `Rotor.C182_bounds`, `Rotor.C183_station`, `Rotor.C183_axial_flight`, `Rotor.C183_balance`, `Rotor.C183_efficiency`, `Rotor.C184_coefficients_partial`, `Rotor.C184_drag`, `Rotor.C184_zero_throttle`, `Rotor.C184_stopped`, `Rotor.C184_coefficients_counterexample`, `Rotor.C184_reversed_counterexample`, `Rotor.C184_efficiency`, `Rotor.C185_power`, `Rotor.C185_length`, `Rotor.C185_speed`, `Rotor.C185_tilt`, `Rotor.C185_default`, `Rotor.C186_karman_tsien`, `Rotor.C186_compressible`, `Rotor.C186_compressible_mono`, `Rotor.C186_linear`, `Rotor.C186_stall`, `Rotor.C186_negative_stall_counterexample`, `Rotor.C186_reynolds`, `Rotor.C186_polar_pos`, `Rotor.C186_drag`, `Rotor.C186_nonzero`, `Rotor.C186_angle`, `Rotor.C186_drag_factor`, `Rotor.C186_thickness_partial`, `Rotor.C186_thickness_counterexample`, `Rotor.C186_fails`, `Rotor.C187_inflow`, `Rotor.C187_range`, `Rotor.C187_tip`, `Rotor.C187_mono`, `Rotor.C187_circulation`, `Rotor.C188_mass`, `Rotor.C188_no_contraction`, `Rotor.C188_contracts`, `Rotor.C188_order`, `Rotor.C189_development`, `Rotor.C189_inside`, `Rotor.C189_outside`, `Rotor.C189_superposition_partial`, `Rotor.C189_superposition_counterexample`, `Rotor.C189_rows_counterexample`, `Rotor.C189_wing_partial`, `Rotor.C190_thrust`, `Rotor.C190_power`, `Rotor.C190_infeasible`, `Rotor.C190_design_thrust_counterexample`, `Rotor.C190_coefficients`, `Rotor.C190_inputs`, `Rotor.C190_stations`, `Rotor.C190_station`, `Rotor.C190_efficiency`, `Rotor.C190_chord`, `Vlm.C191_biot_savart`, `Vlm.C191_end_order`, `Vlm.C192_prandtl_glauert`, `Vlm.C193_mirror`, `Vlm.C193_scale`, `Vlm.C194_zone_of_silence`, `Vlm.C194_felt_downstream`, `Vlm.C194_in_plane_consistent`, `Vlm.C194_margin`, `Vlm.C194_denominator`, `Vlm.C194_self_wave`, `Vlm.C195_onset`, `Vlm.C195_three_quarter`, `Vlm.C196_residual`, `Vlm.C196_tangential_partial`, `Vlm.C196_tangential_counterexample`, `Vlm.C196_vorlax_flat`, `Vlm.C196_vorlax_counterexample`, `Vlm.C196_vorlax_iff`, `Vlm.C197_slipstream_partial`, `Vlm.C197_networks_counterexample`, `Vlm.C197_first_only`, `Vlm.C198_unit_normal`, `Vlm.C198_normal_of_plane`, `Vlm.C198_trapezoid_area`, `Vlm.C199_force_components`, `Vlm.C199_pythagoras`, `Vlm.C199_moment_components`, `Vlm.C199_transfer`, `Vlm.C200_strip_force`, `Vlm.C200_chord_partial`, `Vlm.C200_chord_counterexample`, `Vlm.C200_with_angle`, `Vlm.C201_prefix_sum`, `Vlm.C201_no_leak`, `Vlm.C202_reference_wing`, `Vlm.C202_moment_point_partial`, `Vlm.C202_moment_point_counterexample`, `Vlm.C202_no_reference`, `Vlm.C202_velocity`, `Vlm.C203_rodrigues`, `Vlm.C203_add`, `Vlm.C203_rigid`, `Vlm.C203_hinge_fixed`, `Vlm.C204_path_independent`, `Vlm.C204_restore`, `Vlm.C204_symmetric`, `Vlm.C205_all_moving_counterexample`, `Vlm.C205_hinge_vector_counterexample`, `Vlm.C205_all_moving_partial`, `Vlm.C205_vertical_counterexample`, `Vlm.C206_counts`, `Vlm.C206_spacing`, `Vlm.C207_breaks_captured`, `Vlm.C207_control_surface_stations`, `Vlm.C208_strips_tile`, `Vlm.C208_chord_between`, `Vlm.C208_twist_partial`, `Vlm.C208_twist_counterexample`, `Vlm.C208_corners`, `Vlm.C209_merge`, `Vlm.C209_superimpose`, `Vlm.C209_superimpose_assoc`, `Airfoil.C210_panel_frame`, `Airfoil.C211_flow_tangency`, `Airfoil.C212_kutta`, `Airfoil.C213_symmetric_lift_counterexample`, `Airfoil.C213_symmetric_lift_partial`, `Airfoil.C214_force`, `Airfoil.C214_moment`, `Airfoil.C215_point_count`, `Airfoil.C216_outline`, `Airfoil.C217_camber`, `Airfoil.C217_surfaces`, `Airfoil.C218_max_thickness_counterexample`, `Airfoil.C218_max_thickness_partial`, `Airfoil.C219_names`, `Airfoil.C219_default_counterexample`, `Airfoil.C220_blocks`, `Airfoil.C221_round_with_nose_partial`, `Airfoil.C221_round_partial`, `Airfoil.C221_file`, `Airfoil.C221_comma`, `Airfoil.C221_scientific_counterexample`, `Airfoil.C221_digit_name_counterexample`, `Airfoil.C221_trailing_line_counterexample`, `Airfoil.C222_thickness_partial`, `Airfoil.C222_pairing_counterexample`, `Airfoil.C222_double`, `Airfoil.C223_laminar_closures`, `Airfoil.C223_separation_counterexample`, `Airfoil.C223_flat_plate`, `Airfoil.C224_shape_factor_partial`, `Airfoil.C224_separated_counterexample`, `Airfoil.C225_viscosity_partial`, `Airfoil.C225_viscosity_counterexample`, `Airfoil.C225_friction_partial`, `Airfoil.C225_friction_counterexample`, `Airfoil.C226_gradient_partial`, `Airfoil.C226_quadratic_counterexample`, `Airfoil.C227_smoothing_partial`, `Airfoil.C227_single_counterexample`, `Airfoil.C228_transition_partial`, `Airfoil.C228_relapse_counterexample`, `Airfoil.C228_michel_counterexample`, `Airfoil.C229_drag_partial`, `Airfoil.C229_lower_surface_counterexample`, `Airfoil.C229_wake_partial`, `Airfoil.C230_steps`, `Airfoil.C230_read_back`, `Energy.Rocket.C231_mass_flow`, `Energy.Rocket.C231_continuity_partial`, `Energy.Rocket.C231_loss_counterexample`, `Energy.Rocket.C232_thrust`, `Energy.Rocket.C232_impulse_partial`, `Energy.Rocket.C232_engines_counterexample`, `Energy.Rocket.C233_mass_flow_partial`, `Energy.Rocket.C233_engines_counterexample`, `Energy.Sizing.C234_stack`, `Energy.Sizing.C235_efficiency`, `Energy.Sizing.C235_fuel`, `Energy.Sizing.C235_cells_counterexample`, `Energy.Sizing.C235_maximum_counterexample`, `Energy.Sizing.C235_single_partial`, `Energy.Sizing.C236_mass`, `Energy.Sizing.C237_ragone`, `Energy.Sizing.C238_energy`, `Energy.Sizing.C238_power_counterexample`, `Energy.Sizing.C238_cells_partial`, `Energy.Sizing.C238_total_counterexample`, `Energy.Piston.C239_power_partial`, `Energy.Piston.C239_hot_day_counterexample`, `Energy.Piston.C240_inverse`, `Energy.Piston.C240_demand_partial`, `Energy.Piston.C240_ceiling_counterexample`, `Energy.Piston.C241_variable`, `Energy.Piston.C241_consumption`, `Energy.Piston.C241_constant_partial`, `Energy.Piston.C241_constant_counterexample`, `Energy.Cryo.C242_power`, `Energy.Cryo.C242_low_target`, `Energy.Cryo.C242_carnot_partial`, `Energy.Cryo.C242_carnot_counterexample`, `Energy.Cryo.C242_disabled_counterexample`, `Energy.Cryo.C243_balance_partial`, `Energy.Cryo.C243_antoine`, `Energy.Cryo.C243_saturated_counterexample`, `Energy.Cryo.C243_default_counterexample`, `Energy.Cryo.C244_design`, `Energy.Cryo.C244_unpowered_counterexample`, `Energy.Cryo.C244_overload_partial`, `Energy.Cryo.C244_overload_counterexample`, `Energy.Cryo.C245_power_partial`, `Energy.Cryo.C245_engines_counterexample`, `Energy.Cryo.C245_sizing_counterexample`, `Energy.Cryo.C245_cooling`, `Energy.Cryo.C245_mass_partial`, `Energy.Cryo.C245_excess_counterexample`, `Energy.Cryo.C246_dynamo`, `Energy.Cryo.C246_supply_counterexample`, `Energy.Cryo.C246_network_counterexample`, `Energy.Deck.C247_sums`, `Energy.Deck.C247_second_fuel_partial`, `Energy.Deck.C247_reset_counterexample`, `Energy.Deck.C247_missing_counterexample`, `Energy.Deck.C248_extension`, `Energy.Deck.C248_anchor_partial`, `Energy.Deck.C248_idle`, `Energy.Deck.C248_engines_counterexample`, `Energy.Deck.C249_fit`, `Energy.Deck.C249_design_partial`, `Energy.Deck.C249_gear_counterexample`, `Energy.Deck.C249_slack_counterexample`, `Energy.Deck.C250_products`, `Energy.Deck.C250_nox`, `Mission.C251_leaf_partial`, `Mission.C251_state`, `Mission.C251_again_partial`, `Mission.C251_again_counterexample`, `Mission.C251_override_counterexample`, `Mission.C252_two_fuels`, `Mission.C252_constant`, `Mission.C253_charge_partial`, `Mission.C253_discharge`, `Mission.C253_contingency_counterexample`, `Mission.C253_packs_counterexample`, `Mission.C253_first_counterexample`, `Mission.C254_eas_partial`, `Mission.C254_climb_partial`, `Mission.C254_descent_counterexample`, `Mission.C255_bounds`, `Mission.C255_seed`, `Mission.C255_velocity`, `Mission.C255_altitudes`, `Mission.C255_steady`, `Mission.C255_constraints`, `Mission.C255_nan_counterexample`, `Mission.C256_residual`, `Mission.C256_speeds`, `Mission.C256_takeoff_partial`, `Mission.C256_landing_counterexample`, `Mission.C256_incline_counterexample`, `Mission.C256_level_partial`, `Mission.C257_target_partial`, `Mission.C257_sign`, `Mission.C257_zero_counterexample`, `Aero.C258_solvable`, `Aero.C258_affine`, `Aero.C258_slope`, `Aero.C258_vertical`, `Aero.C259_zero_partial`, `Aero.C259_sign_counterexample`, `Aero.C259_one_station_counterexample`, `Aero.C260_chord_partial`, `Aero.C260_twist_counterexample`, `Aero.C260_segments_partial`, `Aero.C260_last_counterexample`, `Aero.C260_boundary_counterexample`, `Aero.C261_total`, `Aero.C261_line_partial`, `Aero.C261_shared_counterexample`, `Aero.C261_single_partial`, `Aero.C261_drag_counterexample`, `Vlm.C262_default_ordered`, `Vlm.C262_regimes`, `Vlm.C262_between`, `Vlm.C262_neighbours`, `Vlm.C262_continuous`, `Vlm.C262_one_sided`, `Vlm.C263_lift`, `Vlm.C263_drag_partial`, `Vlm.C263_drag_counterexample`, `Vlm.C263_single_counterexample`, `Vlm.C264_tables`, `Vlm.C264_sound`, `Vlm.C264_order_counterexample`, `Vlm.C265_sum`, `Vlm.C265_own`, `Aero.C266_area`, `Aero.C266_stations`, `Aero.C266_ends`, `Aero.C266_some`, `Aero.C267_partial`, `Aero.C267_level_partial`, `Aero.C267_counterexample`, `Aero.C268_sears_haack`, `Aero.C268_low`, `Aero.C268_high`, `Aero.C268_range`, `Aero.C268_ratio`, `Aero.C268_forward_counterexample`, `Aero.C269_outside`, `Aero.C269_profile_partial`, `Aero.C269_momentum`, `Aero.C269_chord_counterexample`, `Aero.C269_grid`, `Geometry.C270_straight_partial`, `Geometry.C270_taper_counterexample`, `Geometry.C270_section_partial`, `Geometry.C270_camber_counterexample`, `Geometry.C271_linear`, `Geometry.C271_inverse`, `Geometry.C271_straight`, `Geometry.C272_horizontal`, `Geometry.C272_vertical`, `Geometry.C273_mean_chord`, `Geometry.C273_cube`, `Geometry.C273_fits`, `Geometry.C274_monotone`, `Geometry.C274_areas`, `Geometry.C274_power`, `Stability.C275_none`, `Stability.C275_roll_damping`, `Stability.C275_damped`, `Stability.C275_dihedral_half`, `Stability.C275_dihedral_partial`, `Stability.C275_dihedral_counterexample`, `Stability.C276_yaw`, `Stability.C276_pitch_partial`, `Stability.C276_tail_slope_counterexample`, `Stability.C276_downwash`, `Stability.C276_lag_counterexample`, `Stability.C277_when`, `Stability.C277_tailless_counterexample`, `Stability.C277_axes_partial`, `Stability.C277_heavier`, `Stability.C277_roll_counterexample`, `Stability.C277_roll_partial`, `Airfoil.C278_blocks`, `Airfoil.C278_usual`, `Airfoil.C278_first_points_counterexample`, `Airfoil.C279_no_data`, `Airfoil.C279_file`, `Airfoil.C279_columns`, `Airfoil.C279_count`, `Airfoil.C279_angles`, `Airfoil.C279_values`, `Airfoil.C280_rows`, `Airfoil.C280_covers_partial`, `Airfoil.C280_chord_counterexample`, `Units.C281_scope_partial`, `Units.C281_two_names_counterexample`, `Units.C281_empty_counterexample`, `Units.C282_error`, `Units.C282_sum`, `Units.C282_product_partial`, `Units.C282_quotient_partial`, `Units.C282_plain`, `Units.C282_difference_counterexample`, `Units.C282_exceptions_counterexample`, `Units.C283_reading`, `Units.C283_warning_partial`, `IO.Vtk.C284_bodies`, `IO.Vtk.C284_section_partial`, `IO.Vtk.C284_section_counterexample`, `IO.Vtk.C285_grid`, `IO.Vtk.C285_first_partial`, `IO.Vtk.C285_place`, `IO.Vtk.C286_grid`, `IO.Vtk.C286_lines_partial`, `IO.Vtk.C286_zeroed`, `IO.Vtk.C286_sense_counterexample`, `IO.Vtk.C286_single_counterexample`, `IO.Vtk.C287_vortices`, `IO.Vtk.C287_circulation_partial`, `IO.Vtk.C287_first_side_counterexample`, `Optim.C289_correction`, `Optim.C289_basic`, `Optim.C289_improvement`, `Optim.C289_best_counterexample`, `Optim.C290_rows_partial`, `Optim.C290_scale_counterexample`, `Optim.C290_bounds_counterexample`, `Optim.C290_table_counterexample`, `Optim.C291_mean`, `Optim.C291_order`, `Optim.C291_search`, `Optim.C292_carpet`, `Optim.C292_constraints_partial`, `Optim.C292_constraints_counterexample`, `Optim.C292_left_counterexample`, `Optim.C292_line`, `Optim.C293_result`, `Optim.C293_value`, `Optim.C293_best_counterexample`, `Optim.C294_last_partial`, `Optim.C294_default_counterexample`, `Optim.C294_first_counterexample`, `Noise.Mic.C295_emission`, `Noise.Mic.C295_shaft_partial`, `Noise.Mic.C295_side_counterexample`, `Noise.Mic.C295_phase`, `Noise.Mic.C296_spreading`, `Noise.Mic.C296_sum`, `Noise.Mic.C296_shapes_partial`, `Noise.Mic.C296_root_counterexample`, `Noise.Mic.C296_units_partial`, `Noise.Mic.C296_units_counterexample`, `Noise.Mic.C296_integral`, `Noise.Mic.C297_hub_partial`, `Noise.Mic.C297_hub_counterexample`, `Noise.Mic.C297_sections_partial`, `Noise.Mic.C297_sections_counterexample`, `Noise.Mic.C298_widths_counterexample`, `Noise.Mic.C298_widths_partial`, `Noise.Mic.C298_even`, `Noise.Mic.C298_azimuth_counterexample`, `Noise.Mic.C298_layers_counterexample`, `Noise.Mic.C299_band`, `Noise.Mic.C299_silence_counterexample`, `Noise.Jet.C300_direction`, `Noise.Jet.C300_settled`, `Noise.Jet.C300_terminates_partial`, `Noise.Jet.C300_angles_partial`, `Noise.Jet.C300_endless_counterexample`, `Noise.Jet.C301_conserves_partial`, `Noise.Jet.C301_between`, `Noise.Jet.C301_diameter`, `Noise.Jet.C301_stagnation_counterexample`, `Noise.Jet.C302_spreading_partial`, `Noise.Jet.C302_lastBand_counterexample`, `Noise.Jet.C303_energy`, `Noise.Jet.C303_bounds`, `Noise.Jet.C303_excitation`, `Noise.Jet.C303_contraction`, `Noise.Jet.C303_bypass`, `Noise.Jet.C303_speed_counterexample`, `Noise.Jet.C303_march`, `Noise.Jet.C304_attack`, `Noise.Jet.C304_plug`, `Noise.Jet.C304_ground`, `Noise.Jet.C304_wing_partial`, `Noise.Jet.C304_wing_counterexample`, `Noise.Jet.C305_angles`, `Noise.Jet.C305_levels_partial`, `Noise.Jet.C305_mixed_counterexample`, `Avl.C306_sections_partial`, `Avl.C306_vertical_partial`, `Avl.C306_plain`, `Avl.C306_sweep_counterexample`, `Avl.C306_anhedral_counterexample`, `Avl.C307_stations_partial`, `Avl.C307_controls`, `Avl.C307_twist_counterexample`, `Avl.C307_tip_counterexample`, `Avl.C307_break_counterexample`, `Avl.C308_segments_partial`, `Avl.C308_plain_counterexample`, `Avl.C309_body`, `Avl.C310_told_partial`, `Avl.C310_sideslip_counterexample`, `Avl.C310_speed_counterexample`, `Avl.C311_mass_partial`, `Avl.C311_mass_counterexample`, `Avl.C312_order_partial`, `Avl.C312_deflections`, `Avl.C312_order_counterexample`, `Avl.C313_rows`, `Avl.C313_lift_partial`, `Avl.C313_lift_counterexample`, `Avl.C314_saved_partial`, `Avl.C314_neutral_counterexample`, `Avl.C314_margin_partial`, `Avl.C314_margin_counterexample`, `Vsp.C315_sections_partial`, `Vsp.C315_thickness_counterexample`, `Vsp.C315_vertical_counterexample`, `Vsp.C316_surface_partial`, `Vsp.C316_root_counterexample`, `Vsp.C316_parameter`, `Vsp.C316_tip_counterexample`, `Vsp.C316_cap_counterexample`, `Vsp.C317_trim`, `Vsp.C317_order`, `Vsp.C317_tank_partial`, `Vsp.C317_tip_counterexample`, `Vsp.C317_fuselage_counterexample`, `Vsp.C318_geometry`, `Vsp.C318_compose`, `Vsp.C318_back`, `Vsp.C318_mono`, `Vsp.C319_height`, `Vsp.C319_lengths_partial`, `Vsp.C319_lengths_counterexample`, `Vsp.C320_sign_partial`, `Vsp.C320_top_partial`, `Vsp.C320_counterexample`, `Vsp.C321_tank_partial`, `Vsp.C321_nose_counterexample`, `Vsp.C322_halves`, `Vsp.C322_nose`, `Vsp.C322_tail`, `Vsp.C323_flow_partial`, `Vsp.C323_closed_counterexample`, `Vsp.C323_angle_counterexample`, `Vsp.C323_airfoil_counterexample`, `Vsp.C323_half_counterexample`, `Vsp.C323_stack`, `Vsp.C323_diameter_counterexample`, `Vsp.C324_station_partial`, `Vsp.C324_sweep_counterexample`, `Vsp.C324_units_counterexample`, `Physics.C325_air`, `Physics.C325_layer_partial`, `Physics.C325_gravity_partial`, `Physics.C325_jump_counterexample`, `Physics.C325_mission_counterexample`, `Mission.C326_climb_partial`, `Mission.C326_law`, `Mission.C326_start_counterexample`, `Mission.C327_initial_partial`, `Mission.C327_deviation_counterexample`, `Mission.C327_overfull_counterexample`, `Rotor.Vortex.C328_shed_partial`, `Rotor.Vortex.C328_axisymmetric`, `Rotor.Vortex.C328_blades_counterexample`, `Rotor.Vortex.C328_rows_counterexample`, `Rotor.Vortex.C329_trailing`, `Rotor.Vortex.C329_quarter`, `Rotor.Vortex.C329_rigid`, `Rotor.Vortex.C329_blades`, `Rotor.Vortex.C329_mirror`, `Rotor.Vortex.C330_level_partial`, `Rotor.Vortex.C330_speed`, `Rotor.Vortex.C330_uniform`, `Rotor.Vortex.C330_vertical_counterexample`, `Rotor.Vortex.C330_lateral_counterexample`, `Rotor.Vortex.C331_moved_partial`, `Rotor.Vortex.C331_unloaded`, `Rotor.Vortex.C331_start`, `Rotor.Vortex.C331_nose_counterexample`, `Rotor.Vortex.C332_biot_savart`, `Rotor.Vortex.C332_sense`, `Rotor.Vortex.C332_damps`, `Rotor.Vortex.C332_bounded`, `Rotor.Vortex.C332_far`, `Rotor.Vortex.C332_reverse`, `Rotor.Vortex.C332_moved`, `Rotor.Vortex.C332_turned_counterexample`, `Rotor.Vortex.C333_lattice`, `Rotor.Vortex.C333_uniform`, `Rotor.Vortex.C333_moved`, `Rotor.Vortex.C334_tangential`, `Rotor.Vortex.C334_directions`, `Rotor.Vortex.C334_angle_partial`, `Rotor.Vortex.C334_angle_counterexample`, `Rotor.Vortex.C334_linear`, `Rotor.Vortex.C334_between`, `Rotor.Vortex.C334_offset`, `Rotor.Vortex.C335_converged_partial`, `Rotor.Vortex.C335_prescribed`, `Rotor.Vortex.C335_tolerance_counterexample`, `Rotor.Vortex.C336_copied_partial`, `Rotor.Vortex.C336_fresh_counterexample`, `Rotor.Vortex.C336_propellers_partial`, `Rotor.Vortex.C336_lift_counterexample`, `Rotor.Vortex.C337_own`, `Rotor.Vortex.C337_slipstream_partial`, `Rotor.Vortex.C337_given_counterexample`, `Rotor.Vortex.C338_found_partial`, `Rotor.Vortex.C338_finer_counterexample`, `Energy.GasTurbine.C339_design`, `Energy.GasTurbine.C339_throttle`, `Energy.GasTurbine.C339_flow`, `Energy.GasTurbine.C339_flow_counterexample`, `Energy.GasTurbine.C339_engines_counterexample`, `Energy.GasTurbine.C339_unsized_counterexample`, `Energy.GasTurbine.C340_jet_partial`, `Energy.GasTurbine.C340_static_counterexample`, `Energy.GasTurbine.C341_point_partial`, `Energy.GasTurbine.C341_missing`, `Energy.GasTurbine.C341_conditions_counterexample`, `Energy.GasTurbine.C342_design_partial`, `Energy.GasTurbine.C342_engine_out`, `Energy.GasTurbine.C342_afterburner_counterexample`, `Energy.GasTurbine.C342_ramjet`, `Energy.GasTurbine.C343_enough_partial`, `Energy.GasTurbine.C343_cooler`, `Energy.GasTurbine.C343_network_counterexample`, `Mission.Converge.C344_rejected_counterexample`, `Mission.Converge.C345_place`, `Mission.Converge.C345_raises`, `Mission.Converge.C345_trim`, `Mission.Converge.C345_glide`, `Mission.Converge.C345_throttle`, `IO.Reports.C346_totals_partial`, `IO.Reports.C346_clock_partial`, `IO.Reports.C346_day_counterexample`, `IO.Reports.C346_additional_counterexample`, `IO.Reports.C346_additional`, `IO.Reports.C346_range_counterexample`, `IO.Reports.C346_rows`, `IO.Reports.C346_units`, `IO.Reports.C347_monotone`, `IO.Reports.C347_equivalent`, `IO.Reports.C348_entry_partial`, `IO.Reports.C348_turbofan_counterexample`, `IO.Reports.C349_sum_partial`, `IO.Reports.C349_area`, `IO.Reports.C349_settings_counterexample`, `IO.Reports.C349_nacelle_counterexample`, `Noise.Flyover.C350_sources`, `Noise.Flyover.C350_flyover`, `Noise.Flyover.C351_place_partial`, `Noise.Flyover.C351_shared_counterexample`, `Noise.Flyover.C351_abeam`, `Noise.Flyover.C351_sideline`, `Noise.Flyover.C352_wanted`, `Noise.Flyover.C352_sampling_counterexample`, `IO.External.C353_geo_partial`, `IO.External.C353_volume`, `IO.External.C354_half_partial`, `IO.External.C354_full_counterexample`, `IO.External.C355_rows`, `IO.External.C355_file`, `IO.External.C355_columns`, `IO.External.C355_super_partial`, `IO.External.C355_default_counterexample`, `IO.External.C356_file_partial`, `IO.External.C356_slices_counterexample`, `IO.External.C356_raises_counterexample`, `IO.External.C357_mass`, `IO.External.C357_cg_partial`, `IO.External.C357_cg_counterexample`, `IO.External.C358_empty_counterexample`, `Rotor.Upstream.C359_disc`, `Rotor.Upstream.C359_all`, `Rotor.Upstream.C359_azimuth`, `Rotor.Upstream.C359_single`, `Rotor.Upstream.C360_station_partial`, `Rotor.Upstream.C360_swirl_counterexample`, `Rotor.Upstream.C360_points_counterexample`, `Rotor.Upstream.C361_current`, `Rotor.Upstream.C361_discharge`, `Rotor.Upstream.C361_charge`, `Vsp.Vehicle.C362_sources_partial`, `Vsp.Vehicle.C362_base_counterexample`, `Vsp.Vehicle.C362_stale_counterexample`, `Vsp.Vehicle.C362_tip_counterexample`, `Vsp.Vehicle.C363_measure`, `Vsp.Vehicle.C363_wetted_partial`, `Vsp.Vehicle.C363_mirror_counterexample`, `Vsp.Vehicle.C364_rotors_partial`, `Vsp.Vehicle.C364_kind`, `Vsp.Vehicle.C364_network_counterexample`, `Vsp.Vehicle.C366_plane`, `Vsp.Vehicle.C366_slices_partial`, `Vsp.Vehicle.C366_place_counterexample`, `Performance.Estimates.C367_ratio_partial`, `Performance.Estimates.C367_wings`, `Performance.Estimates.C367_negative_counterexample`, `Performance.Estimates.C367_unset_counterexample`, `Performance.Estimates.C368_rows`, `Performance.Estimates.C368_neighbours`, `Performance.Estimates.C368_scale_partial`, `Performance.Estimates.C368_level_counterexample`, `Performance.Estimates.C369_cg`, `Performance.Estimates.C370_points_partial`, `Performance.Estimates.C370_single_counterexample`, `Performance.Estimates.C370_radial_counterexample`, `IO.Drawings.C371_nacelle_partial`, `IO.Drawings.C371_length_counterexample`, `IO.Drawings.C371_airfoil_counterexample`, `IO.Drawings.C371_stations_partial`, `IO.Drawings.C372_blades_partial`, `IO.Drawings.C372_section`, `IO.Drawings.C372_sense`, `IO.Drawings.C372_sweep_counterexample`, `IO.Drawings.C372_airfoil_counterexample`, `IO.Drawings.C372_index_counterexample`, `IO.Plots.C373_two_fuels_partial`, `IO.Plots.C373_continuous_partial`, `IO.Plots.C373_one_fuel_partial`, `IO.Plots.C373_mixed_counterexample`, `IO.Plots.C374_incidence_partial`, `IO.Plots.C374_pitch_counterexample`, `IO.Plots.C374_down_counterexample`, `IO.Plots.C374_hover_counterexample`, `IO.Plots.C374_back_counterexample`, `IO.Plots.C374_advance`, `IO.Plots.C375_instant_partial`, `IO.Plots.C375_nominal_partial`, `IO.Plots.C375_nominal_counterexample`, `IO.Tables.C376_rates_partial`, `IO.Tables.C376_axes_counterexample`, `IO.Tables.C377_points_partial`, `IO.Tables.C377_missing_counterexample`, `IO.Tables.C377_name_counterexample`, `IO.Tables.C378_lines_partial`, `IO.Tables.C378_sum_partial`, `IO.Tables.C378_sum_counterexample`, `IO.Tables.C379_compress`, `Energy.Nmc.C380_range`, `Energy.Nmc.C380_measured`, `Energy.Nmc.C380_outside`, `Energy.Nmc.C381_pure_partial`, `Energy.Nmc.C381_counterexample`, `Energy.Nmc.C381_pack`, `Energy.Nmc.C382_charge_partial`, `Energy.Nmc.C382_large_counterexample`, `Energy.Nmc.C382_reverse_counterexample`, `Energy.Nmc.C383_resistance`, `Energy.Nmc.C383_state_partial`, `Energy.Nmc.C383_current_counterexample`, `Energy.Nmc.C383_empty_counterexample`, `Energy.Nmc.C383_ageing_counterexample`, `Energy.Nmc.C384_losses_partial`, `Energy.Nmc.C384_fractions_partial`, `Energy.Nmc.C384_rest_counterexample`, `Energy.Nmc.C384_reverse_counterexample`, `Energy.Nmc.C385_nmc_partial`, `Energy.Nmc.C385_generic_counterexample`, `Energy.Nmc.C385_discharge_counterexample`, `Energy.Nmc.C385_generic_partial`, `Vlm.C386_chord`, `Vlm.C386_quarter_partial`, `Vlm.C386_middle_partial`, `Vlm.C386_control_counterexample`, `Vlm.C387_shared_partial`, `Vlm.C387_section`, `Vlm.C387_airfoil_counterexample`, `Vlm.C388_symmetric`, `Vlm.C389_fin_partial`, `Vlm.C389_twist_counterexample`, `Vlm.C389_twice`, `Vlm.C389_deflection`, `Vlm.C390_same_surface`, `Vlm.C391_fills_partial`, `Vlm.C391_breaks`, `Vlm.C391_down_counterexample`, `Stability.C392_cz_alpha`, `Stability.C392_cx_alpha_partial`, `Stability.C392_cx_alpha_counterexample`, `Stability.C392_cz_u`, `Stability.C392_cx_u`, `Stability.C392_weight`, `Stability.C392_cl_r`, `Stability.C392_cn_p`, `Stability.C392_tail`, `Vlm.C393_panels`, `Vlm.C393_strips`, `Vlm.C393_surface`, `Vlm.C394_sums`, `Vlm.C394_coefficients`, `Vlm.C395_spread`, `Vlm.C395_stations`, `Vlm.C395_lift`, `Vlm.C396_stations`, `Vlm.C396_exponent`, `Vlm.C396_outline`, `Vlm.C396_tiling`, `Vlm.C396_area`, `Vlm.C396_width_counterexample`, `Vlm.C397_nacelle`, `Vlm.C397_width`, `Vlm.C397_pair_partial`, `Vlm.C397_single_counterexample`, `Energy.Cryo.C398_heat`, `Energy.Cryo.C398_section`, `Energy.Cryo.C398_unpowered`, `Energy.Cryo.C398_table_counterexample`, `Energy.Cryo.C398_mass_counterexample`, `IO.C399_regression`, `IO.C399_others_partial`, `IO.C399_log_counterexample`, `IO.C399_quiet`, `IO.C399_letters_counterexample`, `IO.C399_status_counterexample`, `Vlm.C400_cuts_partial`, `Vlm.C400_overlap_counterexample`, `Vlm.C400_nested`, `Rotor.C401_derivative_partial`, `Rotor.C401_tip_partial`, `Rotor.C401_chord_counterexample`, `Weights.C402_integral_partial`, `Weights.C402_positive_partial`, `Weights.C402_split`, `Weights.C402_negative_counterexample`, `Weights.C402_zero_counterexample`, `Vlm.C403_taper`, `Vlm.C403_tip`, `Vlm.C403_chords_partial`, `Vlm.C403_complete`, `Vlm.C403_quarter`, `Vlm.C403_leading`, `Vlm.C403_dihedral`, `Vlm.C403_contradiction_counterexample`, `Vlm.C405_contradiction_partial`, `Vlm.C405_plain_counterexample`, `Vlm.C405_segments_counterexample`, `Optim.C406_objective_partial`, `Optim.C406_constraints_counterexample`, `Energy.C407_propellers`, `Energy.C407_columns`, `Energy.C407_again`, `Energy.C407_tilting`, `Energy.C407_cruise`, `Energy.C407_lift_partial`, `Energy.C407_transition_partial`, `Energy.C407_transition_counterexample`, `Energy.C407_hover_counterexample`, `Energy.C407_mismatch_counterexample`, `Vlm.C408_points`, `Vlm.C408_rotation`, `Vlm.C408_steady`, `Vlm.C408_refine`, `Vlm.C408_suction`, `Vlm.C408_edge`, `Performance.C409_rough`, `Performance.C409_rough_above`, `Performance.C409_continues`, `Performance.C409_positive`, `Performance.C409_negative_partial`, `Performance.C409_dip_counterexample`, `Performance.C409_negative_counterexample`, `Performance.C410_positive`, `Performance.C410_negative`, `Weights.FlopsWing.C411_lookup`, `Weights.FlopsWing.C411_constant_partial`, `Weights.FlopsWing.C411_thickness`, `Weights.FlopsWing.C411_taper_counterexample`, `Weights.FlopsWing.C411_engines_partial`, `Weights.FlopsWing.C411_engines_counterexample`, `Weights.FlopsWing.C412_panel`, `Weights.FlopsWing.C412_moment`, `Weights.FlopsWing.C412_engines_partial`, `Weights.FlopsWing.C412_engines_counterexample`, `Airfoil.Extended.C413_zero_partial`, `Airfoil.Extended.C413_stall_counterexample`, `Airfoil.Extended.C413_slope_partial`, `Airfoil.Extended.C413_slope_counterexample`, `Airfoil.Extended.C414_data_partial`, `Airfoil.Extended.C414_start_counterexample`, `Weights.C415_fuselage_partial`, `Weights.C415_fuselage_load`, `Weights.C415_short_counterexample`, `Weights.C415_tail_partial`, `Weights.C415_canard_counterexample`, `Weights.C415_gear_partial`, `Weights.C415_range_counterexample`, `Weights.C415_nacelle`, `Weights.C415_nacelle_counterexample`, `Weights.C415_stall`, `Rotor.C416_rotation`, `Rotor.C416_single_axis`, `Rotor.C416_inverse`, `Rotor.C416_body_axes`, `Rotor.C416_tilt_partial`, `Rotor.C416_euler_counterexample`, `Rotor.C416_tilt_counterexample`, `Performance.C417_lines`, `Optim.C418_ratio_partial`, `Optim.C418_fallback_counterexample`, `Optim.C418_slsqp_counterexample`, `Core.C419_filed`, `Core.C419_main_wing_partial`, `Core.C419_capital_counterexample`, `Core.C419_completed_counterexample`, `Core.C419_rotor_counterexample`, `Core.C419_nacelle_counterexample`, `Weights.C421_passengers`, `Weights.C421_size`, `Weights.C421_furnishings`, `Weights.C421_laws`, `Weights.C421_cargo_counterexample`, `Weights.C421_short_counterexample`, `Weights.C421_apu_counterexample`, `Weights.C421_mach`, `IO.C423_frames`, `IO.C423_turn`, `IO.C423_midpoints`, `IO.C423_no_folder`, `IO.C423_rotor_counterexample`, `Avl.C424_fixed_partial`, `Avl.C424_wanted_unique`, `Avl.C424_flap_counterexample`, `Physics.ExitShock.C425_unique`, `Physics.ExitShock.C425_pressure`, `Physics.ExitShock.C425_area`, `Physics.ExitShock.C425_flow`, `Physics.ExitShock.C425_subsonic`, `Physics.ExitShock.C425_shock_at_exit`, `Physics.AirGas.C426_sutherland`, `Physics.AirGas.C426_viscosity`, `Physics.AirGas.C426_conductivity`, `Physics.AirGas.C426_heats`, `Physics.AirGas.C426_sound`, `Physics.AirGas.C426_choice`, `Physics.AirGas.C426_prandtl`, `Physics.AirGas.C426_density`, `Core.TwoDim.C428_column`, `Core.TwoDim.C428_row`, `Core.TwoDim.C428_twice`, `Optim.C429_field`, `Optim.C429_order`, `Optim.C429_none`, `Optim.C429_printed_order`, `Optim.C429_printed_counterexample`, `Optim.C429_label_counterexample`, `Optim.C429_second_counterexample`, `Avl.File.C430_read`, `Avl.File.C430_order`, `Avl.File.C430_controls`, `Avl.File.C430_body`, `Avl.File.C430_digits`, `Avl.File.C430_reference`, `Physics.SteamGas.C431_constants`, `Physics.SteamGas.C431_density`, `Physics.SteamGas.C431_sound`, `Physics.SteamGas.C431_heat`, `Physics.SteamGas.C431_one_gas_partial`, `Physics.SteamGas.C431_one_gas_counterexample`, `Core.C432_underscore_counterexample`, `Energy.MetalAir.C433_discharge`, `Energy.MetalAir.C433_sign`, `Energy.MetalAir.C433_reaction`, `Energy.MetalAir.C433_potential`, `Noise.Report.C434_airframe`, `Noise.Report.C434_engine_partial`, `Noise.Report.C434_engine_counterexample`, `Noise.Report.C434_written`, `Noise.Report.C434_max`, `Noise.Report.C434_spectrum`, `Noise.C435_airframe_partial`, `Noise.C435_steps_counterexample`, `Noise.C435_single_counterexample`, `Noise.C435_engine_partial`, `Noise.C435_engine_counterexample`, `Noise.C435_weighting`, `Vsp.Export.C436_sections_partial`, `Vsp.Export.C436_nose_counterexample`, `Vsp.Export.C436_close_counterexample`, `Vsp.Export.C436_single_counterexample`, `Vsp.Export.C436_wing_partial`, `Vsp.Export.C436_wing_counterexample`, `Optim.Snopt.C437_trust_partial`, `Optim.Snopt.C437_additive_partial`, `Optim.Snopt.C437_more_counterexample`, `Optim.Snopt.C437_name_counterexample`, `Optim.Snopt.C437_relation_counterexample`, `Optim.Snopt.C437_variables`, `IO.MissionPanels.C438_panels_partial`, `IO.MissionPanels.C438_current_counterexample`, `IO.MissionPanels.C438_margin_counterexample`, `Airfoil.C439_start_partial`, `Airfoil.C439_limit_counterexample`, `Airfoil.C439_falls`, `Airfoil.C439_back`, `Airfoil.C440_parts_partial`, `Airfoil.C440_again_counterexample`, `Airfoil.C440_arc`, `Airfoil.C440_surfaces_partial`, `Airfoil.C440_still_counterexample`, `Vsp.C441_counts`, `Vsp.C441_airfoil`, `Vsp.C441_beta`, `Vsp.C441_disc_partial`, `Vsp.C441_tilted`, `Vsp.C441_toe_counterexample`, `Optim.C442_own`, `Optim.C442_trained`, `Energy.Cells.C443_cell`, `Energy.Cells.C443_power_partial`, `Energy.Cells.C443_power_counterexample`, `Energy.C444_resistance`, `Energy.C444_voltage`, `Energy.C444_rises`, `Energy.C444_load`, `Energy.C444_pack_partial`, `Energy.C444_pack_counterexample`, `Rotor.C445_efficiency`, `Rotor.C445_aligned_partial`, `Rotor.C445_lift_counterexample`, `Rotor.C445_tilted`, `Rotor.C445_repeat`, `Rotor.C445_rotor`, `Mission.Analyses.C446_last`, `IO.RotorPanels.C447_limits_partial`, `IO.RotorPanels.C447_limits_counterexample`, `IO.RotorPanels.C447_efficiency`, `IO.RotorPanels.C447_thrust`, `IO.RotorPanels.C447_thrust_counterexample`, `IO.RotorPanels.C447_ageing_partial`, `IO.RotorPanels.C447_ageing_counterexample`, `IO.RotorPanels.C447_ring`, `Noise.Mic.C448_sum_partial`, `Noise.Mic.C448_defined`, `Noise.Mic.C448_weighted_counterexample`, `Noise.Mic.C448_missing_counterexample`, `Noise.Report.C449_rows_partial`, `Noise.Report.C449_mach_counterexample`, `Noise.Report.C449_ends`, `Noise.Report.C449_written`, `Mission.C450_expand`, `Mission.C450_again`, `Mission.C450_points_partial`, `Mission.C450_points_counterexample`, `IO.FlightFigures.C451_drawn_partial`, `IO.FlightFigures.C452_limits_counterexample`, `IO.FlightFigures.C453_lines_partial`, `IO.FlightFigures.C453_surfaces_counterexample`, `Noise.Mic.C454_loudest_partial`, `Noise.Mic.C454_longer_counterexample`, `Noise.Mic.C454_shorter_counterexample`, `Noise.Mic.C454_charging_counterexample`, `Noise.Mic.C455_range_partial`, `Noise.Mic.C455_range_counterexample`, `Noise.Mic.C455_flight_partial`, `Noise.Mic.C455_scale_counterexample`, `Noise.Mic.C455_buildings`, `Vehicle.CgMap.C456_units`, `Vehicle.CgMap.C456_choices`, `Vehicle.CgMap.C456_whole`, `Airfoil.Figures.C457_force`, `Airfoil.Figures.C457_place`, `Airfoil.Figures.C457_arrows`, `Airfoil.Figures.C457_middle_counterexample`, `Airfoil.Figures.C457_windows_partial`, `Airfoil.Figures.C457_windows_counterexample`, `Airfoil.Figures.C458_files`, `Airfoil.Figures.C458_files_count`, `Airfoil.Figures.C458_stored_partial`, `Airfoil.Figures.C458_unit_counterexample`, `Airfoil.Figures.C458_grid_counterexample`, `Stability.SurfaceDerivatives.C459_last_counterexample`, `Stability.SurfaceDerivatives.C459_slopes_partial`, `Stability.SurfaceDerivatives.C459_keys_counterexample`, `Stability.SurfaceDerivatives.C459_surrogate_counterexample`, `Stability.SurfaceDerivatives.C459_propellers`, `Stability.SurfaceDerivatives.C459_propellers_there`, `Physics.Compositions.C460_make_partial`, `Physics.Compositions.C460_own`, `Physics.Compositions.C460_gas_counterexample`, `Physics.Compositions.C460_air_counterexample`, `Physics.Compositions.C460_check_partial`, `Physics.Compositions.C460_warning_counterexample`, `Physics.Compositions.C461_energy_partial`, `Physics.Compositions.C461_kerosene`, `Physics.Compositions.C461_avgas_counterexample`, `Physics.Compositions.C461_temperatures_partial`, `Physics.Compositions.C461_freeze_counterexample`, `Aero.LiftChain.C462_lift`, `Aero.LiftChain.C462_entries_partial`, `Aero.LiftChain.C462_entries_direct`, `Aero.LiftChain.C462_tags_counterexample`, `Aero.LiftChain.C462_capital_counterexample`, `Aero.LiftChain.C462_plain`, `Aero.LiftChain.C462_total_counterexample`, `Aero.LiftChain.C462_avl`, `Aero.LiftChain.C462_su2_partial`, `Aero.LiftChain.C462_su2_counterexample`, `Aero.LiftChain.C462_su2_super_counterexample`, `Aero.Steps.C463_initialise_partial`, `Aero.Steps.C464_through`, `Aero.Steps.C464_where`, `Aero.Steps.C464_defaults_partial`, `Aero.Steps.C464_needed`, `Aero.Steps.C464_su2_super_counterexample`, `Energy.AppendedOffTake.C466_appended`, `Energy.AppendedOffTake.C466_assigned_partial`, `Energy.AppendedOffTake.C466_other_names`, `Energy.AppendedOffTake.C466_counterexample`, `Weights.Materials.C467_blades`, `Weights.Materials.C467_wing_partial`, `Weights.Materials.C467_ribs_counterexample`, `Weights.Materials.C467_ribs_direct_partial`, `Weights.Materials.C467_cover_counterexample`, `Weights.Materials.C467_fuselage_partial`, `Weights.Materials.C467_fuselage_direct_partial`, `Weights.WebHeight.C468_wing`, `Weights.WebHeight.C468_wing_partial`, `Weights.WebHeight.C468_blade`, `Weights.WebHeight.C468_blade_rounding_counterexample`, `Weights.WebHeight.C468_counterexample`, `Weights.TorsionBox.C469_area`, `Weights.TorsionBox.C469_skin_counterexample`, `Weights.TorsionBox.C469_skin_partial`, `Weights.Solids.C470_strengths`, `Weights.Solids.C470_roles_partial`, `Weights.Solids.C470_ribs_counterexample`, `Weights.Solids.C470_copper_counterexample`, `Weights.Solids.C470_width`, `IO.SavedPressures.C471_symmetric_partial`, `IO.SavedPressures.C471_changed_counterexample`, `IO.SavedPressures.C471_order`, `IO.SavedPressures.C471_twice_counterexample`
