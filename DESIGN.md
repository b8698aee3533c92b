# Machine-checked model of thunder_dynamics

This document says what is modelled, how each property of `properties.jsonl` is proved, and what has to be trusted.

## 1. What the code does, and how it is modelled

Thunder reads a YAML robot description, builds symbolic CasADi expressions for kinematics, dynamics and regressors,
registers each of them as a named function (`Robot::add_function`), emits C code, and instantiates a C++ wrapper class
`thunder_<robot>` from a text template.

| layer | Lean modules | C++ |
|---|---|---|
| CasADi scalar/matrix expressions, symbolic derivative | `Verif.Sym.*` | the fragment of `casadi::SX` the repo uses |
| kinematics, dynamics, regressors | `Verif.Model.Kinematics`, `.Dynamics`, `.Regressors`, `.Body` | `kinematics.cpp`, `dynamics.cpp`, `regressors.cpp` |
| state monad with four outcomes; numbers that may be undetermined | `Verif.Model.Act`, `.Num` | – |
| `Robot` object (maps, add_function, get/set, load/save, selectivity) | `Verif.Model.Robot` | `robot.cpp`, `robot.h` |
| YAML tree, `parse_config`, constructors | `Verif.Model.Yaml`, `.Config` | `robot.cpp` |
| `robot_from_file`: every registration of the `compute_*` functions; the user hook | `Verif.Model.Pipeline`, `.User` | `robot.cpp`, `kinematics.cpp`, `dynamics.cpp`, `regressors.cpp`, `userDefined.cpp` |
| generated wrapper object, its getters | `Verif.Model.Wrapper`, `.Generated` | `thunder_robot_template/thunder_robot.{h,cpp}` |
| threads running getters | `Verif.Model.Threads` | the getters emitted by `change_to_robot` |
| text replacement; the template files; the instantiation | `Verif.Model.Text`, `.Template`, `.Instantiate` | `utils.cpp` (`change_to_robot`, `replace_all`, `get_ret_type`), the template files |
| CLI | `Verif.Model.Cli` | `thunder_main.cpp` |
| splitting a robot file into parameter files | `Verif.Model.GenYaml` | `genYaml.cpp` |
| the test program for robots | `Verif.Model.TestMain` | `thunder_test.cpp` |
| the test program for generated classes | `Verif.Model.ClassTest` | `/repo/src/thunder_robot/thunder_robot_test.cpp` |
| the programs that measure times | `Verif.Model.Chrono` | `/repo/src/thunder/thunder_test_chrono.cpp`, `/repo/src/thunder_robot_chrono/thunder_robot_test_chrono.cpp` |
| rigid body parameter utilities | `Verif.Model.Inertia` | `utils.cpp`, `FrameOffset.cpp` |
| independent specifications | `Verif.Spec.*` | – |
| helper lemmas | `Verif.Lemmas.*`, `Verif.Lib.*` | – |
| property theorems (one file per group) | `Verif.Props.*` | – |

Conventions.

* **Numbers.** Doubles are modelled as real numbers; rounding errors are the subject of C76 and C80–C84 (`Model/Rounding.lean`, `Model/RoundingPar.lean`) and of no
  other property, with one exception: CasADi folds
  `sin`/`cos` of a *numeric* angle into a double at construction time and `ZIS` then truncates it; the model carries an
  arbitrary folding function `fl : ℝ → ℝ` (class `Fl`), every theorem holds for all of them, and rigidity theorems state which
  fact about the folded pair they need (`c²+s²=1`, met e.g. by the folded pair `(0,1)` of the double 1.5707963267948966).
* **CasADi.** `SX` scalars are an expression tree; `SX` matrices are a size plus an entry function plus a flag `ok` that becomes
  false when an operation has non-conforming sizes or an index out of range (CasADi throws there).
  The on-the-fly simplifications `0·x = 0`, `0+x = x` are modelled because they decide which free variables an expression has.
  `jacobian`/`jtimes` are modelled by a symbolic derivative that is *proved* equal to the analytic derivative.
  `inv` is a node whose value is the matrix inverse (CasADi's algorithm for it is trusted).
* **Errors.** Model functions that can fail return `Res`: a value, a C++ exception, undefined behaviour (out-of-range access of a
  `std::vector` or raw buffer), or a non-finite result (division by zero). UB is never a silent default.
* **Specs** are stated over plain real matrices and derivatives (`HasDerivAt`), not over the model's helpers.

## 2. Properties

Status words: *proved* – full statement; *partial* – the full statement is false of the code or not completely covered; a
`_partial` theorem gives what holds and, where the code is wrong, a witness theorem proves the failure.

| id | how |
|---|---|
| C01 | product of four elementary homogeneous matrices; induction over the chain |
| C02 | SO(3) closed under product; induction over the chain |
| C03, C04 | symbolic derivative of the chain computed by induction (`D` is a derivation), then `D = HasDerivAt` |
| C05 | C03/C04 plus the lever-arm identity `hat(R p) = R hat(p) Rᵀ` |
| C06 | free-variable analysis + explicit zero columns |
| C07, C18 | chain rule for expressions along trajectories |
| C08 | `JJᵀ+μI` positive definite; completing the square |
| C09 | case split of `ZIS` |
| C10, C11 | algebra of `Σ m JᵀJ + Jᵀ R I Rᵀ J` |
| C12 | C03/C04 for the CoM point |
| C13, C14, C15 | index computation of the column-major reshape / selector |
| C16 | derivative of the CoM height |
| C17 | from C13, C10, C16 by the chain rule |
| C19, C20 | sums of odd monomials `v^(2k+1)`, `|v| v^(2k+1)` |
| C21 | false: witness with joint list `[R, R_SEA]`; holds when elastic joints come first (`_partial`) and for no other robot (`C21_iff`) |
| C22, C23 | linearity of `M` in REG parameters; linearity of `C` in `M`; gravity via C04 |
| C24, C25 | derivative of an expression affine in the parameters |
| C26 | `D = HasDerivAt` columnwise |
| C27, C28 | field algebra per link, `mass = 0` is the non-finite outcome |
| C29 | false for every robot with a joint (`C29_fails`): the update call stands after the `return`; `_partial`: setter followed by an explicit update |
| C30 | invariant over call histories (`Inv`); false in general: two witnesses; exact conditions call by call (`Props/WrapperExact.lean`) |
| C31 | false for `set_par_DYN/REG`; `_partial` for the other setters; exact condition in `C31_iff` |
| C32 | frame condition; the hypothesis (argument stored with its size) holds for every robot built from a configuration (`C32_config`, an invariant of `parse_config` and of every history); witnesses where it fails; `C32_iff`: the claim holds in a state exactly under this hypothesis |
| C33 | invariant over call histories (`Buf`); false when `load_conf` fails on a file of another pattern: witness. For arbitrary files `Lemmas/WrapperLen.lean` follows the six sections of `load_conf` and gives the length of each kinematic member afterwards; from it the exact condition (`C33_iff`), and in `Lemmas/WrapperOver.lean` the exact condition for an access outside a vector (`C33_access_iff`) |
| C34 | the robots of two patterns are related step by step (`Lemmas/Twin.lean`): every library expression of one is the other's with constants for symbols (`Lemmas/FnRel.lean`, relation `Sym/Eqv.lean`), hence equal values; false when an angle is symbolic in one pattern only and the library functions are not exact on it (`C34_needs_exact`, `C34_fails`); `C34_iff` (`Props/SelectivityExact.lean`) gives the exact condition on the angles of the file: the transformations can be undone, so that one inexact angle shows in `T_i`, `T_0` or `T_0_ee`; `C34_partial_values` (`Props/Flagged.lean`) says it for robots and generated classes in use, with changed parameters: both return the matrices of the mechanism (C56–C60), which do not depend on the marks |
| C35 | `robot_from_file` is executed: each registration of the `compute_*` functions is in a table (`Lemmas/Fn.lean`: name, expression, declared inputs), for each row the free symbols are covered by the inputs, `obtain_symb_parameters` finds them, the constructor accepts them; the list of names in the spec (`Spec.library`) is proved to be exactly the registered one; the name of the robot decides whether CasADi accepts the functions (`Spec/Names.lean`, `C35_name`) |
| C36 | simulation between robot and object of the generated class (`Lemmas/Generated.lean`, `Pair`) over histories of loads and settings; false when the symbolic parameters of links and actuators are not the first of their vectors, because `load_conf` stores all of them while the C code expects the symbolic ones: `C36_needs_aligned` (every configuration), `C36_fails` (inertial parameters). For every pattern the object is one for `asRead c` (`Spec/AsRead.lean`, `C36_exact`), so agreement is a statement about two mechanisms (`C36_iff`; the derivatives of the matrices are compared along a cubic motion through the state) |
| C37 | false for every configuration with a numeric inertial parameter (`C37_fails`); `_partial` for all-symbolic; `C37_iff` says that there is no other case |
| C38 | Hoare triples over the statements of `parse_config`; false in general (witnesses); no UB under explicit size conditions on the tree; well-formed files (`Spec.Describes`) meet them and their contents are stored exactly; `C38_iff` (`Props/ConfigExact.lean`): for every tree a parser delivers, the exact condition for UB, in the order in which the file is read (`Spec.BadConfig`) |
| C40, C41 | the saved tree is computed (link names are injective), then the loading loops by induction over the links |
| C39, C43 | induction over the link list / the list of names; the contents of a file are specified on the YAML tree (`Spec/File.lean`) |
| C42 | false for every state (`C42_fails`): the section read is not the section written; `_partial` for files in the layout that is read |
| C44, C53 | frame conditions; "changes no later result" is equality of traces of arbitrary later calls (`Spec/Robot.lean`); C44 false after `update_symb_parameters` (witness); `C44_iff`: for a robot from a file it holds for the arguments given exactly when in each of them the symbolic entries come first |
| C45 | strong induction; refinement to an inductive spec of leftmost replacement |
| C46 | both template files are in the model as text; `Lemmas/Replace.lean` reduces the sequence of replacements to one pass over the lines, `Lemmas/Quiet.lean` and `Lemmas/Shape.lean` show that no other line of the result declares or opens a getter whatever the robot is called, `Lemmas/Book.lean` and `Lemmas/User.lean` follow the tables of functions through `robot_from_file` with an arbitrary user hook; the spec (`Spec/Instantiate.lean`) reads the getters back from the lines of the generated text |
| C47 | string arithmetic |
| C48 | false |
| C49 | invariant over interleavings |
| C50 | false: witness; `_partial` when `sin(yaw)·sin(roll)=0` |
| C51, C52 | matrix algebra; exact conditions for C52 in `C52_iff` (change of frame by a rotation) and `C52_trace_iff` |
| C54 | conjugation invariance |
| C55 | frame condition; the members a setter is named after are a table in the spec (`Spec/Wrapper.lean`) |
| C01 – C26 for returned values | the theorems above speak of the registered expressions; `Props/Returned.lean` (`C01_get` … `C22_get`, `C54_get`) and C56 – C60 say the same of what `get` and the getters of the generated class return in every state. `Spec/Returned.lean`: `Law y c f F`, every source answers `F s` in state `s`; `law_unique`: a law is determined, because every state is reached (C56, C61). The derivatives are those of the laws along the arguments of the state |
| C61 | the getters read the first entries of the member vectors; these determine a robot in use with the same arguments, and getter and `get` evaluate the same function (`Spec.Generated.same`); `C61_reachable` runs `load_conf` and the setters, `C61_loaded` reuses the simulation of C36 |
| C56 – C60 | composition of everything above: the spec (`Spec/System.lean`) defines frames, energies, mass matrix, … from the numbers in the file alone; `Lemmas/System*.lean` evaluate each registered expression in the environment given by the current arguments (`returns_fn`, using C35 and the invariants of use) and identify the value; `Running` says that the robot was built from the file and used in any way, `C56_start` and `C56_reachable` that this is met for all values |
| C62 | the steps of `main` are a program on a disk with a set of outcomes (`Model/Gen.lean`); each step is shown to have one outcome, the files it writes are a list (`Lemmas/Gen.lean`: distinct paths are told apart by last letter and length), `Lemmas/RegArg.lean` follows `par_REG` from the file to the document; the frame theorem is a syntactic induction over the steps (`Lemmas/GenFrame.lean`) |
| C63, C64 | the quadratic form of a vector whose first moving joint is `i` is bounded below by the part of link `i`, which is `v_i²` times what the link opposes to its own joint (`Lemmas/Posdef.lean`); energy balance: chain rule on the energies of the spec (`Spec/Balance.lean`) with C58 and C60 for the returned values. The springs act between motor `e` and link `e`, as in `compute_elastic`, also where the elastic joints are not the first ones (C21) |
| C65 | the trees of the robot files (`Model/Shipped.lean`) and tables of their contents (`Spec/Shipped.lean`) were transcribed by a script; `Describes` is checked entry by entry (`Lemmas/Shipped.lean`), positive semidefiniteness by minors (`Lemmas/Fleet.lean`), angles in `Lemmas/Angles.lean`; C56, C61, C63, C64 then apply. False of the code: frankaWrist has its only elastic joint at position 8 while `k` reads `q` of joint 1 (`C65_wrist_fails`, a shipped instance of C21); R15 and R30 have no sections `kinematics` and `dynamics`, so that the constructor swallows the exception of `parse_config` and `compute_chain` throws, and without `compute` an all-zero robot is returned silently (`C65_old`) |
| C66 | the function is a program over the list of links read so far and the files written (`Model/GenYaml.lean`); its loops are evaluated on link lists (`Spec/ParFile.lean`, `Lemmas/GenYaml.lean`), the files written are read with the reading functions of C36 and C39; `C66_all_or_nothing` holds for arbitrary trees. False of the code: with friction declared `node.second["Dl"]` is read instead of the friction node, so nothing is written (`C66_friction_fails`); links of the same name are merged; fewer joints than links write outside the vector (`C66_overrun`) `Props/GenYamlExact.lean`: `C66_iff` gives for every tree and number of joints the exact conditions for undefined behaviour, for an exception and for writing the files, stated on the tree. |
| C67 | the values of the expressions for two families of cosines and sines (the folded ones and the exact ones of `Spec.exact c`) are compared: vectors and numbers carry a size and a relative error `gap u m` (`Lemmas/Near.lean`), propagated through rotations, positions, Jacobian columns, `M`, `G` and the derivatives in `C` (`Lemmas/Drift*.lean`); positive definiteness by subtracting the error from the bound of C63 (`Lemmas/Accuracy.lean`); `C67_structure` and `C67_power` need no assumption on the angles; for the robot files an error of 1e-15 is enough (`Lemmas/Firm.lean`, `C67_fleet`) |
| C68 | the program genYAML (`Model/Urdf.lean`) on lists of entries: those complete push one body each, those without angles none (`Lemmas/Urdf.lean`); `transformBodyInertial` is the function of C52, its result is stated in the URDF frame (`Spec/Urdf.lean`: `dhPoint`, `dhTensor` from the table in the comment of the program); the input file of the repository is transcribed (`Model/ShippedUrdf.lean`) and the numbers written for it are listed (`Spec/ShippedUrdf.lean`). False of the code for angles with sin yaw · sin roll ≠ 0, for fewer than eight bodies, for entries without angles, and as to loading: see `MANIFEST.json` `Props/UrdfExact.lean`: `C68_iff`, the program reads outside its vector exactly when fewer than eight entries with place and angles stand before the first entry that cannot be read. |
| C69 | the program thunder_test (`Model/TestMain.lean`), with the robot file as an argument; products and sums of Eigen matrices have the outcome `none` when the sizes do not fit. Every printed function is what `get` answers for a robot of C56 in the state of the program (`Lemmas/TestMain.lean`: `running_get`, `setAll_ok`), so C56–C60 give the values; the last line is C59 with `par_REG` from the file. False of the code: with elastic joints and no elastic model `set_x` throws and nothing is caught (`C69_iff`); `get("par_DHtable")` is not a function and gives a single zero, likewise the regressors and terms the robot does not have; `par_DYN` is the C37 vector with unwritten entries (`C69_fails`), for the file named in the program entirely so (`C69_sea`); a missing file is C38 (`C69_nofile`). `C69_blind`: since reference velocities and accelerations are zero, the last line is the same for all matrices `M`, `C` |
| C70 | the program thunder_robot_test (`Model/ClassTest.lean`), with the robot from which the class was generated and the file it reads as arguments; it is not built when a getter it calls does not exist. The object after `load_conf` is that of C71, `par_REG` by the invariant of C30 (`Lemmas/ClassTest.lean`: `class_loaded`), the getters are those of C56–C59 (`class_run`). False of the code: with inertial parameters of which some are symbolic the getters use other numbers than those printed and the last check is not zero although class and file belong together (`C70_fails`); `C70_iff` says exactly when it is zero. `C70_silent`: it is zero with a file whose numeric parameters differ from those of the class, since both torques use the numbers of the class. A missing file does not stop the program (`C70_nofile`) |
| C71 | the members after `load_conf` (`Loaded`, C36) hold the numbers of the file loaded, of which the C code reads the symbolic ones; the others are constants of the generated code. `C71_fails` evaluates the gravity term of a lift |
| C72 | the two programs share one loop over an action with a clock, an arbitrary sequence of integers (`Model/Chrono.lean`); the values are those of C56–C59 in the state with all variables one (`Lemmas/Chrono.lean`), the time kept is a fold over the durations with the conversion to `int`. False of the code: the start value 999999999 is printed when no duration is below it (`C72_fails`), in the program with a class also when all durations are zero (`C72_class_fails`) |
| C73 | `Spec/Tune.lean`: what the user does (`Tuning`), which calls these are and which mechanism they lead to (`retune`: the symbolic entries of one vector become, in their order, the numbers given). `Lemmas/Tune.lean`: the invariant `Wrap.Tuned` (the members begin with the symbolic parameters of the current mechanism) is kept by every call, so that after any history the object is `Generated` for the folded mechanism and C56–C61 apply. The README's claim is false in part, see `C73_ignored`, `C73_front`, `C73_new` |
| C74 | `Spec/Adaptive.lean`: the closed loop of a mechanism with the geometry and friction of the file and unknown bodies, and the controller of Slotine and Li made of the values returned for `Yr` and `dl` at each time. `Props/Adaptive.lean`: the Lyapunov function loses exactly `sᵀ K s` (`C74_rate`, from the identity of C59 for all bodies, the derivative of the mass matrix of C58 and the skew symmetry of C15, applied to the mechanism with the *true* bodies while the regressor is that of the robot at hand); the consequences (`C74_loses`, `C74_tracks`, `C74_follows`) use two facts about real functions proved in `Lib/Decay.lean` (a form of Barbalat's lemma and a stable filter). Hypotheses that stay: the motion exists for all times, the error of the accelerations is bounded. Time is continuous, numbers are exact. |
| C75 | `Spec/Header.lean` reads constants, guard, includes and module from the lines of a text (the reading is a function of the text: `constants_unique`). `Lemmas/Header.lean` follows each line of the template through the eleven replacements of the header; `Lemmas/HeaderText.lean` does the two replacements of the guard (the first occurrence only: with a name that contains `THUNDERROBOT` the second one hits the first line again and the two lines of the guard differ), the source and the build file; `Lemmas/Dims.lean` shows that no function of the user changes the sizes. `Props/Header.lean`: `C75`, `C75_cmake`, `C75_library`, witness `Ex.C75_unguarded`. The constants are those that the model of the class takes as parameters (`Wrap.cfg`), so this closes the gap between the text and `Model/Wrapper.lean` for the sizes. |
| C76 | `Model/Rounding.lean` evaluates expressions one operation after the other on an arbitrary `Machine u`, every operation having a relative error of at most `u` for results between `u` and `1/u`, an absolute error of at most `u²` for smaller results (underflow) and any outcome for larger ones (overflow): `Near`. `Machine.double`, rounding to the nearest number of the type `double` with its limits on the exponent, is one with `u = 2⁻⁵³`. `get` and the getters of the class are defined with these values. Simplifications: infinite values and NaN after an overflow are numbers of which nothing is known; the order of additions and the form of the derivatives are those of the model; `pow`, `sin`, `cos`, `sqrt` are one operation; the algorithm behind the matrix inverse is not modelled: each column of the result is assumed to solve a system whose matrix is off by at most `u B` when the entries of the computed matrix and of its inverse are at most `B` and `u (n B)⁴ ≤ 1` (`SolvesNear`, backward stability; the constant of the algorithm is part of `u`, and `Machine.double` inverts exactly). `Lemmas/Rounding.lean` bounds the error of the expressions in which divisors are bounded away from zero `sqrt` is applied to squares only and inverted matrices have bounded inverses (`Tame`); `Lemmas/RoundingFn.lean` shows that all functions of the library are such, including the derivatives and the pseudo-inverse, whose inverted matrix `J Jᵀ + μ² I` has an inverse of at most `1/μ²` (`Lib/LeastSquares.lean`). `Props/Rounding.lean`: `C76` (the constant is uniform in states, parameters and object), `C76_exact`, `C76_symm`, `C76_posdef` (compactness: a mass matrix computed with small errors stays positive definite), `C76_bounded`; `Props/Double.lean`: `C76_double` (the rounding of `Machine.double` gives a number of the format binary64, and none is closer). |
| C77 | `Model/Members.lean` has the getters of sizes, types and orders of `Robot`. `Lemmas/Members.lean`: every call, and `robot_from_file` with any functions of the user and with or without computing the functions, keeps these members. `Props/Members.lean`: `C77`, for any history of calls, also failing ones. |
| C78 | `Model/Members.lean` has the setters, getters and `hat` of `FrameOffset`, reading past the end of a vector being a separate outcome. `Props/Members.lean`: `FrameOffset.C78_new_partial` (the objects the constructors make), `C78_last` (exactly which vectors are usable, after any calls), `C78_hat`, witness `C78_fails`: the setters do not check the size. The class is used in robot.cpp:48-49 only, by two variables without use. |
| C79 | `Spec/Torque.lean`: the closed loops of computed torque and of proportional-derivative feedback with compensation of gravity, the controllers working with the values returned for `M`, `C`, `G`, `dl` at each time. `Lib/Damped.lean`: rate of decay of a damped oscillation. `Lemmas/Regulate.lean`: a mechanical system with springs and dampers comes to rest; positions, velocities and accelerations are bounded by the energy and compactness, velocities tend to zero (`tendsto_zero_of_pays`), and the errors because position error plus momentum is the output of a filter whose input tends to zero. `Props/Torque.lean`: `C79_linear` (invertibility of the mass matrix, C63), `C79_follows`, `C79_tends`, `C79_rate` and `C79_rests` (derivative of the mass matrix is `C + Cᵀ`, from C58 and C15; continuity of the returned matrices as in C76). |
| C80 | `Props/RoundedUse.lean`: forward dynamics and computed torque with the terms returned on a `Machine u` (C76). `Lemmas/Perturb.lean`: errors of products, positive definiteness of a matrix close to a positive definite one, size of the solution of a linear system. `C80_terms` one constant for `M`, `C`, `G`, `dl`; `C80_forward` accelerations solved from the computed terms, up to a residual of the solver; `C80_torque` accelerations under the computed torques; `C80_follows` tracking error, by the disturbed oscillation of `Lib/Damped.lean`. The motion is assumed to remain within a bound (the constants depend on it); how the linear system is solved is not modelled, only its residual enters. |
| C81 | `Props/RoundedInputs.lean`. `Spec/Measured.lean`: variables and symbolic parameters off by at most δ. `C81_inputs` reduces them to C76: a value off by δ is a computed value on a machine with error `u + δ` applied to an expression with one more addition per symbol (`Lemmas/RoundingInput.lean`, `Lemmas/Substitute.lean`). `Model/RoundingPar.lean` has the loops of `update_inertial_REG` and `update_inertial_DYN` of robot and class, and `set_par_REG` of the class, one operation after the other on a `Machine u`; `Lemmas/RoundingPar.lean` shows that their expressions are those of the exact model and divide by nothing but the mass. `C81_reg`, `C81_dyn` conversions and both round trips; `C81_robot`, `C81_class` what the functions store; `C81_adaptive` `set_par_REG` followed by any getter. The constants depend on the least mass μ: the conversion divides by it. |
| C82 | `Props/Sensed.lean`: C80 with the inputs of C81, for a controller that holds measured positions and velocities (`Spec/Measured.lean`, `sensed`) and approximate symbolic parameters. `C82_bounded` the answers are bounded as long as the inputs are; `C82_terms` one constant for `M`, `C`, `G`, `dl`; `C82_torque` the accelerations under torques computed from measured values differ from those wanted by at most `K (u + δ)`; `C82_follows` tracking error when the feedback uses the measured values too. Example: a slider whose position is read with a constant error stops with that error. As in C80 the motion is assumed to remain within a bound. |
| C83 | `Props/Simulation.lean`, `Spec/Simulation.lean`: a simulator asks the robot or object for `M`, `C`, `G`, `dl` at its own positions and velocities, solves for the accelerations and makes a step of the method of Euler. `C83_step`: the system has a solution, and the accelerations are off by at most `K (u + δ + r)` in a state off by δ; `C83_euler`: up to a time `T` positions and velocities are off by at most `K (u + h + r + e)`, by the terms of C82 (which are Lipschitz), the mean value theorem and a discrete Grönwall inequality. Assumed of the motion: it remains within a bound and its accelerations are Lipschitz in time; the other variables of the simulating object (`ddq`, `w`, …) keep bounded values. |
| C84 | `Props/Sampled.lean`, `Spec/Sampled.lean`, `Lib/DampedRight.lean`: the controller of C82 reads positions and velocities at the times `k h` only and holds its torques in between; torques jump, so the accelerations are derivatives on the right. `C84_torque`: with held torques the accelerations are bounded, and near those wanted as long as the mechanism is near the state measured (no bound of the accelerations is assumed, unlike C82). `C84_follows`: nothing is assumed about bounds of the motion. As long as the errors are at most ρ the accelerations are bounded (C84_torque), hence the state moves by at most a multiple of `h` between readings, hence the errors are less than ρ; by induction over the real line (`stays`) they remain so. The errors die out exponentially up to a term proportional to `u + h + δ`. Assumed: a reference with bounded derivatives and Lipschitz acceleration; the other variables of the reading object (`ddq`, `w`, …) keep bounded values. Existence of the motion is not claimed. |
| C85 | `Props/Remount.lean`, `Spec/Remount.lean`, `Lemmas/Rigid.lean`: two sources (C56) whose mechanisms are `c` and `mounted c …` (other `world2L0` and gravity) or `tooled c …` (other `Ln2EE`) in the same state. `C85_kinematics`: one rigid motion `D` moves all frames; Jacobians are turned (`jacobian_left`, from the definition of the Jacobian by derivatives), their rates by uniqueness of derivatives along a motion through the state, the pseudo-inverse by uniqueness of the minimiser (C57). `C85_dynamics`: C54 for all functions of the dynamics; equality of the regressor matrices follows from equality of their products with the parameters of all bodies (`eq_of_reg`). `C85_tool`: another tool; rule for two points of a body (`jacobian_point`). |
| C86 | `Props/Shared.lean`, `Spec/Shared.lean`, `Lemmas/Shared.lean`: two sources (C56) whose files share the base and the first `k` links (`SharesLinks`; the numbers of joints may differ). `C86_frames`: induction along the chain from C56. `C86_jacobians`, `C86_columns`: the Jacobians of C57 are derivatives of frames, which agree, or are constant, as functions of the joint. `C86_regressor`: changing the parameters of one link changes the kinetic and potential energy by a term that does not depend on later joints (`kinetic_split`, `potential_row`), so rows of `M`, `C`, `G` of later joints stay (`massOf_row`, `coriolisOf_row`, `gravityOf_row`); an entry of a regressor whose products do not change is zero (`entry_zero`, with C59). `C86_loads`: the same for `M`, `C`, `C_std`, `G` of two sources whose files differ in the inertial parameters of any of the links before the joint (`of_links`: link by link). |
| C87 | `Props/Payload.lean`, `Spec/Payload.lean`: three sources (C56) that differ in the inertial parameters; `Joined` states that bodies are fixed to each other by masses, centres of mass and the parallel axis theorem (`steiner`), not by the linear parameters of the code. `reg_joined`: the linear parameters add; `C87`: hence `M`, `C`, `C_std`, `G` add, since they are linear in these parameters (C59 with unit vectors for the reference velocity and acceleration). |

## 3. Trusted base

* The Lean 4 kernel; axioms `propext`, `Classical.choice`, `Quot.sound` only.
* That the model transcribes the cited C++ lines (each definition cites them).
* yaml-cpp (`Model/Yaml.lean`): lookup returns the first entry with the key; the non-const `operator[]` gives an undefined node for a missing
  key, the const one an invalid node; `as<T>` throws for unreadable or missing values; a double written to a file is read back as the same
  number.  Scalars are arbitrary, so nothing is assumed about number formats.
* CasADi functions (`Model/Robot.lean`): a `Function` can be built exactly when its name is accepted by `Function::check_name` (`checkName`), its inputs
  are distinct symbols and they cover the free symbols of the output, otherwise the constructor throws; a call throws when an argument does not have the size of the input; an element index out of
  range and a negative matrix size throw; calling a default-constructed function is undefined.
* The template files are copied into `Model/Template.lean`; whether the copy is exact can be seen with `diff`.
* Files (`Model/Gen.lean`): a path is a text, different texts are different files (no links, no `..`); the rights to write do not change while the
  program runs; `ofstream` does nothing when a file cannot be opened, `copy_file` and `create_directory` throw.  CasADi's code generator writes
  `NAME_gen.cpp` and `NAME_gen.h`; their text, the text of an emitted YAML document and the stored functions are arbitrary.
* CasADi, Eigen, yaml-cpp, the C++ compiler and the C code emitted by CasADi behave as described in section 1; the C function emitted for a
  CasADi function computes its value and needs the work arrays of the sizes it announces.

Not modelled: rounding, overflow and underflow outside of the evaluation of a function (C76), the conversion of inertial parameters (C81) and of the constant folding of trigonometric functions, the algorithm of matrix inversion behind `J_ee_pinv` (assumed to be backward stable, C76), console output, the YAML text syntax
(files are YAML trees), the C text written by `generate_library`, whether the generated CMake project builds, the time that a call takes (the readings of the clock are arbitrary); in `genYAML`
the branches of the constants `use_gripper` and `copy_flag` (both `false`), and the distribution of its random numbers, which are arbitrary.  The text of
its numbers (`stringstream`) is read by an arbitrary function.

Seeded bugs: `seeded/LOG.jsonl` has one line per attempt, with its outcome. `caught`: the listed property theorems no longer prove. `not caught`: they all still proved although the claim was false (`t014`, `t033`, `c005`); the theorems in `theorems_tightened` were then strengthened or added, and the same edit was run again (`u001`, `u002`, `d001`). `inconclusive`: the edited tree fails to build in a definition, so that the list of failing theorems could not be determined.

## 4. Remarks on the code found while modelling

Failures of the listed properties are in the table above and in `MANIFEST.json`.  Further observations:

* CasADi accepts only names made of letters, digits and single underscores that begin with a letter.  A robot called `7dof`, `my-robot` or `arm_`
  (for instance after its file) makes `robot_from_file` throw when the first function is added (`C35_name`); `thunder gen` then ends with an
  uncaught exception.
* `main` ignores the results of `save_conf` and `save_par_REG`: when one of the two files cannot be written, the command still reports success
  (`Ex.C62_silent`); a failing copy of `--copy` is reported on the console only.
* The include guard of the generated header is made by replacing twice the first `THUNDERROBOT`. For a robot name that contains this word the
  tested and the defined macro differ, so the header has no guard (C75).
* `FrameOffset::set_ypr`, `set_translation` and `set_gravity` accept vectors of any size; the getters then read past the end (C78).
* In the template header the member `robotName` contains the word that is replaced by the name of the robot, so the generated class has the member
  `<name>Name`.  A robot whose name contains `THUNDERROBOT` changes the include guard a second time.
* genYAML draws the noise of its first regressor file from a normal distribution with standard deviation 0, which the C++ standard does not allow.
* A line break in the description of a function ends the comment in the generated header.
* Python bindings for a robot without functions: `change_to_robot` removes the last character of an empty string (undefined).
* The example function in `userDefined.cpp` passes `q0`, which is not a member of the generated class; the generated source does not compile
  (`C46_example`).
* `update_symb_parameters` shortens the parameter vectors but keeps the old flags, so `add_function` called afterwards with a partially symbolic
  parameter selects wrong entries or throws (`C44_fails`).
* README, "Symbolic selectivity": the call `myRobot.set_parameter(1)` on a new object is ignored, because before `load_conf` the members have the full
  size (`C73_new`); for links and actuators it is ignored also afterwards, and a full vector is read from the front (`C73_ignored`, `C73_front`).
