{"id": "C01", "title": "Forward kinematics follow the modified DH convention", "statement": "get(\"T_i\") is Trans_x(a_i)·Rot_x(alpha_i)·Trans_z(d_i)·Rot_z(theta_i) with q_i added to theta_i on revolute and to d_i on prismatic joints; get(\"T_0_i\") is the world-to-L0 transform (translation, then yaw-pitch-roll Rz·Ry·Rx) times T_1…T_i; get(\"T_0_ee\") and get(\"T_0_{n+1}\") are T_0_n times the Ln-to-EE transform.", "quantifier": "for every number of joints, every mix of R/P/R_SEA/P_SEA joints, every DH table, frame offset and symbolic/numeric split of the parameters, and every joint vector q", "why_tests_cant": "Infinitely many robots, tables and angles; a test only samples some configurations of some robots.", "anchors": [{"file": "src/thunder/src/kinematics.cpp", "symbols": ["DHTemplate", "get_transform", "compute_chain", "R_x", "R_y", "R_z"]}]}
{"id": "C02", "title": "Every frame transform is a rigid motion", "statement": "Every T_i, T_0_i and T_0_ee has an orthonormal rotation block with determinant 1 and last row (0,0,0,1).", "quantifier": "for every number of joints, every mix of R/P/R_SEA/P_SEA joints, every DH table, frame offset and symbolic/numeric split of the parameters, and every joint vector q", "why_tests_cant": "Orthonormality must hold on the whole continuum of configurations and for every chain length.", "anchors": [{"file": "src/thunder/src/kinematics.cpp", "symbols": ["compute_chain", "ZIS", "DHTemplate", "get_transform"]}]}
{"id": "C03", "title": "Linear part of J_i is the derivative of the frame origin", "statement": "Row 0..2, column j of get(\"J_i\") equals the partial derivative with respect to q_j of the translation of get(\"T_0_i\").", "quantifier": "for every number of joints, every mix of R/P/R_SEA/P_SEA joints, every DH table, frame offset and symbolic/numeric split of the parameters, and every joint vector q, every frame i and joint j", "why_tests_cant": "A statement about derivatives at every point; finite differences only approximate it at samples.", "anchors": [{"file": "src/thunder/src/kinematics.cpp", "symbols": ["compute_jacobians"]}]}
{"id": "C04", "title": "Angular part of J_i is the body's angular velocity map", "statement": "With R the rotation of get(\"T_0_i\") and w_j rows 3..5, column j of get(\"J_i\"), the partial derivative of R with respect to q_j is hat(w_j)·R.", "quantifier": "for every number of joints, every mix of R/P/R_SEA/P_SEA joints, every DH table, frame offset and symbolic/numeric split of the parameters, and every joint vector q, every frame i and joint j", "why_tests_cant": "A derivative identity between matrix functions over a continuum, for every chain length and joint mix.", "anchors": [{"file": "src/thunder/src/kinematics.cpp", "symbols": ["compute_jacobians"]}, {"file": "src/thunder/src/utils.cpp", "symbols": ["hat"]}]}
{"id": "C05", "title": "J_ee is the Jacobian of the end-effector frame", "statement": "Linear rows of get(\"J_ee\") (and of J_{n+1}) are the partial derivatives of the translation of get(\"T_0_ee\"), including the lever arm of the Ln-to-EE offset, and its angular rows satisfy dR_ee/dq_j = hat(w_j)·R_ee.", "quantifier": "for every number of joints, every mix of R/P/R_SEA/P_SEA joints, every DH table, frame offset and symbolic/numeric split of the parameters, and every joint vector q", "why_tests_cant": "As above; the tool offset enters through an algebraic correction whose sign and frame cannot be settled by sampling.", "anchors": [{"file": "src/thunder/src/kinematics.cpp", "symbols": ["compute_jacobians"]}]}
{"id": "C06", "title": "A frame never depends on joints after it", "statement": "For j>i column j of J_i and of J_cm_i is zero and T_0_i does not depend on q_j.", "quantifier": "for every number of joints, every mix of R/P/R_SEA/P_SEA joints, every DH table, frame offset and symbolic/numeric split of the parameters, and every joint vector q, all i<j<=n", "why_tests_cant": "Independence of a value from an input is a statement about all pairs of inputs.", "anchors": [{"file": "src/thunder/src/kinematics.cpp", "symbols": ["compute_jacobians", "compute_chain"]}, {"file": "src/thunder/src/dynamics.cpp", "symbols": ["DHJacCM"]}]}
{"id": "C07", "title": "J_ee_dot and J_ee_ddot are time derivatives", "statement": "Along every twice differentiable joint trajectory, get(\"J_ee_dot\") at (q,dq) is d/dt of J_ee(q(t)) and get(\"J_ee_ddot\") at (q,dq,ddq) is the second derivative.", "quantifier": "for every robot and every trajectory and instant", "why_tests_cant": "Quantifies over all trajectories (a function space).", "anchors": [{"file": "src/thunder/src/kinematics.cpp", "symbols": ["compute_kin_adv"]}]}
{"id": "C08", "title": "The damped pseudo-inverse exists everywhere and solves the damped least-squares problem", "statement": "J·Jᵀ+0.02·I is invertible at every configuration including singular ones, and for every task velocity v the joint velocity J_ee_pinv·v is the unique minimiser of |J x − v|² + 0.02|x|².", "quantifier": "for every robot, every configuration (singular or not), every v and every competitor x", "why_tests_cant": "Singular configurations form a measure-zero set and the minimiser claim quantifies over all competitors.", "anchors": [{"file": "src/thunder/src/kinematics.cpp", "symbols": ["compute_kin_adv", "MU"]}]}
{"id": "C09", "title": "Zero-if-small truncation changes a rotation entry by less than 1e-15", "statement": "Each entry of R_x, R_y, R_z built from a numeric angle differs from the untruncated cos/sin by less than 1e-15, and symbolic angles are never truncated.", "quantifier": "for every numeric angle and every symbolic expression", "why_tests_cant": "The bound must hold for each of infinitely many angles, near-zero crossings included.", "anchors": [{"file": "src/thunder/src/kinematics.cpp", "symbols": ["ZIS", "R_x", "R_y", "R_z"]}]}
{"id": "C10", "title": "Mass matrix is symmetric", "statement": "get(\"M\") equals its transpose.", "quantifier": "for every number of joints, every mix of R/P/R_SEA/P_SEA joints, every DH table, frame offset and symbolic/numeric split of the parameters, and every joint vector q and every inertial parameter vector", "why_tests_cant": "All configurations and all parameters, including unphysical ones produced by an identification loop.", "anchors": [{"file": "src/thunder/src/dynamics.cpp", "symbols": ["compute_MCG", "createInertialParameters"]}]}
{"id": "C11", "title": "Mass matrix is positive semidefinite for physical links", "statement": "If every link mass is non-negative and every link inertia tensor is positive semidefinite then vᵀ·get(\"M\")·v >= 0 for every v.", "quantifier": "for every number of joints, every mix of R/P/R_SEA/P_SEA joints, every DH table, frame offset and symbolic/numeric split of the parameters, and every joint vector q, every physical parameter vector and every v", "why_tests_cant": "Definiteness quantifies over all vectors and configurations.", "anchors": [{"file": "src/thunder/src/dynamics.cpp", "symbols": ["compute_MCG"]}]}
{"id": "C12", "title": "½·dqᵀ·M·dq is the kinetic energy of the links", "statement": "½dqᵀ get(\"M\") dq is the sum over links of ½m|v|²+½ωᵀ(R I Rᵀ)ω where v is the time derivative of the centre-of-mass position given by T_0_i and the CoM parameters and hat(ω)=Ṙ Rᵀ.", "quantifier": "for every number of joints, every mix of R/P/R_SEA/P_SEA joints, every DH table, frame offset and symbolic/numeric split of the parameters, and every joint vector q, every dq and every inertial parameter vector", "why_tests_cant": "Ties the numbers to physics through derivatives of position; sampling can only agree to finite-difference accuracy.", "anchors": [{"file": "src/thunder/src/dynamics.cpp", "symbols": ["compute_MCG", "DHJacCM", "createInertialParameters"]}]}
{"id": "C13", "title": "C is the Christoffel Coriolis matrix", "statement": "get(\"C\")(h,j) = ½·Σ_k (∂M_hj/∂q_k + ∂M_hk/∂q_j − ∂M_jk/∂q_h)·dq_k.", "quantifier": "for every number of joints, every mix of R/P/R_SEA/P_SEA joints, every DH table, frame offset and symbolic/numeric split of the parameters, and every joint vector q, dq and all parameters", "why_tests_cant": "The column-major reshape and selector-matrix algebra must be right for every n and index triple.", "anchors": [{"file": "src/thunder/src/dynamics.cpp", "symbols": ["stdCmatrix", "dq_select"]}]}
{"id": "C14", "title": "C and C_std agree", "statement": "get(\"C\") and get(\"C_std\") are equal (the doubt in the code comment 'probably have to be C = C/2' is unfounded).", "quantifier": "for every number of joints, every mix of R/P/R_SEA/P_SEA joints, every DH table, frame offset and symbolic/numeric split of the parameters, and every joint vector q, dq and all parameters", "why_tests_cant": "Equality of two differently computed symbolic expressions on a continuum.", "anchors": [{"file": "src/thunder/src/dynamics.cpp", "symbols": ["stdCmatrix", "stdCmatrix_classic", "compute_MCG"]}]}
{"id": "C15", "title": "Passivity: M_dot − 2C is skew-symmetric", "statement": "get(\"M_dot\") − 2·get(\"C\") is skew-symmetric, hence dqᵀ(M_dot−2C)dq = 0.", "quantifier": "for every number of joints, every mix of R/P/R_SEA/P_SEA joints, every DH table, frame offset and symbolic/numeric split of the parameters, and every joint vector q, dq and all parameters", "why_tests_cant": "Passivity-based controllers need it identically, not approximately at samples.", "anchors": [{"file": "src/thunder/src/dynamics.cpp", "symbols": ["stdCmatrix", "compute_dyn_derivatives"]}]}
{"id": "C16", "title": "G is the gradient of the gravitational potential energy", "statement": "get(\"G\")(j) is the partial derivative with respect to q_j of U(q) = −Σ_i m_i gᵀ p_ci(q).", "quantifier": "for every number of joints, every mix of R/P/R_SEA/P_SEA joints, every DH table, frame offset and symbolic/numeric split of the parameters, and every joint vector q, gravity vector and inertial parameters", "why_tests_cant": "Derivative identity on a continuum.", "anchors": [{"file": "src/thunder/src/dynamics.cpp", "symbols": ["compute_MCG", "DHJacCM"]}]}
{"id": "C17", "title": "M ddq + C dq + G is the Euler-Lagrange equation and conserves energy", "statement": "Along every twice differentiable trajectory M·q̈+C·q̇+G equals d/dt(∂L/∂q̇)−∂L/∂q for L = kinetic − potential energy, and the power q̇ᵀ(M·q̈+C·q̇+G) is the rate of change of the total mechanical energy.", "quantifier": "for every robot, every parameter vector and every trajectory", "why_tests_cant": "Quantifies over all trajectories.", "anchors": [{"file": "src/thunder/src/dynamics.cpp", "symbols": ["compute_MCG", "stdCmatrix"]}]}
{"id": "C18", "title": "M_dot, M_ddot, C_dot, C_ddot, G_dot, G_ddot are time derivatives", "statement": "Along every sufficiently differentiable trajectory these functions, evaluated at q,dq,ddq,d3q, are the first and second time derivatives of M(q), C(q,dq) and G(q).", "quantifier": "for every robot and every trajectory", "why_tests_cant": "Function-space quantifier; second derivatives make finite differences useless as an oracle.", "anchors": [{"file": "src/thunder/src/dynamics.cpp", "symbols": ["compute_dyn_derivatives"]}]}
{"id": "C19", "title": "Link friction is odd and dissipative", "statement": "get(\"dl\") changes sign with dq, vanishes at dq=0, and dqᵀ·dl >= 0 whenever all par_Dl are non-negative, for every friction order.", "quantifier": "for every number of joints, every Dl_order, all coefficients and all velocities", "why_tests_cant": "Every order and every velocity; even-order terms use |dq| via sqrt.", "anchors": [{"file": "src/thunder/src/dynamics.cpp", "symbols": ["compute_Dl"]}]}
{"id": "C20", "title": "Elastic coupling and damping are odd, restoring and dissipative", "statement": "get(\"k\") is odd and monotone in the deflection and is the gradient of a non-negative stored energy when par_K >= 0; get(\"d\") and get(\"dm\") are odd and dissipative when their coefficients are non-negative.", "quantifier": "for every number of elastic joints, every order, all coefficients and states", "why_tests_cant": "As above, over all orders.", "anchors": [{"file": "src/thunder/src/dynamics.cpp", "symbols": ["compute_elastic"]}]}
{"id": "C21", "title": "Spring torque acts between a motor and its own link", "statement": "Entry e of k and d depends on the position/velocity of the link of the e-th elastic joint (the e-th joint whose type ends in _SEA) and of motor e only.", "quantifier": "for every arrangement of elastic and rigid joints along the chain", "why_tests_cant": "Needs every arrangement; the shipped example has all joints elastic, where the defect is invisible.", "anchors": [{"file": "src/thunder/src/dynamics.cpp", "symbols": ["compute_elastic"]}, {"file": "src/thunder/src/robot.cpp", "symbols": ["Robot::parse_config"]}]}
{"id": "C22", "title": "Regressor identity Yr·par_REG = M·ddqr + C·dqr + G", "statement": "get(\"Yr\")·REG(par_DYN) = get(\"M\")·ddqr + get(\"C\")·dqr + get(\"G\") where REG is the barycentric parameter map applied by update_inertial_REG.", "quantifier": "for every number of joints, every mix of R/P/R_SEA/P_SEA joints, every DH table, frame offset and symbolic/numeric split of the parameters, and every joint vector q, dq, dqr, ddqr, gravity and every par_DYN", "why_tests_cant": "The adaptive controller's stability proof uses the identity for all arguments; the repo test only prints one residual.", "anchors": [{"file": "src/thunder/src/regressors.cpp", "symbols": ["compute_Yr", "createQ", "createE"]}, {"file": "src/thunder/src/dynamics.cpp", "symbols": ["compute_MCG"]}, {"file": "src/thunder/src/robot.cpp", "symbols": ["Robot::update_inertial_REG"]}]}
{"id": "C23", "title": "Yr splits into reg_M + reg_C + reg_G, each reproducing its term", "statement": "Yr = reg_M+reg_C+reg_G; reg_M·par_REG = M·ddqr, reg_C·par_REG = C·dqr, reg_G·par_REG = G.", "quantifier": "for every number of joints, every mix of R/P/R_SEA/P_SEA joints, every DH table, frame offset and symbolic/numeric split of the parameters, and every joint vector q and all arguments", "why_tests_cant": "Continuum of arguments, all n.", "anchors": [{"file": "src/thunder/src/regressors.cpp", "symbols": ["compute_Yr"]}]}
{"id": "C24", "title": "Friction regressor is linear-exact", "statement": "dl = reg_dl·(symbolic par_Dl) + (dl with the symbolic coefficients at zero), and reg_dl does not depend on the coefficients, so with all coefficients symbolic dl = reg_dl·par_Dl.", "quantifier": "for every n, Dl_order, symbolic pattern, coefficients and dq", "why_tests_cant": "All patterns of symbolic flags (2^(n·order)) and all values.", "anchors": [{"file": "src/thunder/src/regressors.cpp", "symbols": ["compute_reg_Dl"]}]}
{"id": "C25", "title": "Elastic regressors are linear-exact", "statement": "Same decomposition for k/reg_k, d/reg_d, dm/reg_dm, and Mm·ddx/reg_Mm.", "quantifier": "for every number of elastic joints, orders, symbolic patterns, coefficients and states", "why_tests_cant": "All patterns and values.", "anchors": [{"file": "src/thunder/src/regressors.cpp", "symbols": ["compute_reg_elastic"]}]}
{"id": "C26", "title": "Kinematic regressors are parameter sensitivities of J_ee·dq and J_eeᵀ·w", "statement": "Column c of reg_Jdq (reg_JTw) is the partial derivative of J_ee·dq (J_eeᵀ·w) with respect to the c-th symbolic parameter in the order DH table, world2L0, Ln2EE.", "quantifier": "for every number of joints, every mix of R/P/R_SEA/P_SEA joints, every DH table, frame offset and symbolic/numeric split of the parameters, and every joint vector q, dq, w and every symbolic pattern", "why_tests_cant": "Derivative identity over a continuum and all patterns.", "anchors": [{"file": "src/thunder/src/regressors.cpp", "symbols": ["compute_reg_J"]}]}
{"id": "C27", "title": "DYN and REG parametrisations are inverse to each other", "statement": "update_inertial_REG followed by update_inertial_DYN restores par_DYN, and conversely, whenever every link mass is non-zero; with a zero mass the REG-to-DYN direction divides by zero.", "quantifier": "for every number of links and every parameter vector", "why_tests_cant": "All real parameter vectors, including negative masses met during identification.", "anchors": [{"file": "src/thunder/src/robot.cpp", "symbols": ["Robot::update_inertial_DYN", "Robot::update_inertial_REG"]}, {"file": "src/thunder/thunder_robot_template/thunder_robot.cpp", "symbols": ["thunder_robot::update_inertial_DYN", "thunder_robot::update_inertial_REG"]}]}
{"id": "C28", "title": "Generator and generated wrapper use the same DYN/REG map", "statement": "Robot::update_inertial_* (hat(c)ᵀ·hat(c)) and thunder_robot::update_inertial_* (hat(c)·hat(c)ᵀ) compute the same vectors.", "quantifier": "for every parameter vector", "why_tests_cant": "Equality of two formulas on all inputs.", "anchors": [{"file": "src/thunder/src/robot.cpp", "symbols": ["Robot::update_inertial_REG"]}, {"file": "src/thunder/thunder_robot_template/thunder_robot.cpp", "symbols": ["thunder_robot::update_inertial_REG"]}]}
{"id": "C29", "title": "Robot keeps par_DYN and par_REG consistent", "statement": "After Robot::set_par_DYN(v) returns 1, get_par_REG is the REG image of v (and symmetrically for set_par_REG).", "quantifier": "for every robot state and every v of the right size", "why_tests_cant": "The intended update is after a return on every path; only reasoning about all paths shows it never runs.", "anchors": [{"file": "src/thunder/src/robot.cpp", "symbols": ["Robot::set_par_DYN", "Robot::set_par_REG"]}]}
{"id": "C30", "title": "thunder_robot keeps par_DYN and par_REG consistent over every call history", "statement": "After any sequence of public calls that use the default update flags, par_REG is the REG image of par_DYN.", "quantifier": "for every finite sequence of constructor/set/load calls", "why_tests_cant": "Histories are unbounded.", "anchors": [{"file": "src/thunder/thunder_robot_template/thunder_robot.cpp", "symbols": ["thunder_robot::set_par_DYN", "thunder_robot::set_par_REG", "thunder_robot::load_conf", "thunder_robot::load_par_REG"]}]}
{"id": "C31", "title": "A setter given a wrong-size vector leaves the object unchanged", "statement": "Calling any thunder_robot::set_* with a vector of the wrong size changes no observable state.", "quantifier": "for every object state, setter and wrong-size vector", "why_tests_cant": "All states reachable by any history; the defect needs a state where the two parametrisations differ.", "anchors": [{"file": "src/thunder/thunder_robot_template/thunder_robot.cpp", "symbols": ["thunder_robot::set_par_DYN", "thunder_robot::set_par_REG", "thunder_robot::set_q", "thunder_robot::setArguments"]}]}
{"id": "C32", "title": "Robot::set_q/dq/dqr/ddqr/x/dx/ddx/ddxr accept exactly the right size and touch only their argument", "statement": "The call returns 1 iff the size is numJoints (numElasticJoints for x-type); then the argument equals the value and every other argument is unchanged; otherwise nothing changes.", "quantifier": "for every robot state and every vector", "why_tests_cant": "Frame condition over all states.", "anchors": [{"file": "src/thunder/src/robot.cpp", "symbols": ["Robot::set_q", "Robot::set_dq", "Robot::set_x", "Robot::set_ddxr"]}]}
{"id": "C33", "title": "Object buffers of thunder_robot keep the size the generated code reads", "statement": "In every state reachable by any call history, each member vector has at least as many entries as the generated functions read from its data() pointer, provided every configuration file loaded successfully has the same symbolic pattern as the one used for generation.", "quantifier": "for every call history", "why_tests_cant": "Memory safety over unbounded histories, including failing loads.", "anchors": [{"file": "src/thunder/thunder_robot_template/thunder_robot.cpp", "symbols": ["thunder_robot::load_conf", "thunder_robot::resizeVariables", "thunder_robot::set_par_DHtable"]}, {"file": "src/thunder/src/utils.cpp", "symbols": ["change_to_robot"]}]}
{"id": "C34", "title": "Symbolic selectivity never changes values", "statement": "After robot_from_file, get(f) with the file's parameters gives the same matrix whatever subset of parameters is marked symbolic.", "quantifier": "for every configuration, every pair of symbolic patterns, every function f and every argument value", "why_tests_cant": "2^k patterns for k parameters.", "anchors": [{"file": "src/thunder/src/robot.cpp", "symbols": ["Robot::subs_symb_par", "Robot::init_symb_parameters", "Robot::update_symb_parameters", "Robot::add_function", "Robot::get"]}]}
{"id": "C35", "title": "Library construction succeeds for every symbolic pattern", "statement": "For a well-formed configuration robot_from_file registers every function: each expression's free variables are covered by the declared inputs, so no CasADi construction error is raised, whatever the symbolic pattern.", "quantifier": "for every well-formed configuration and every symbolic pattern", "why_tests_cant": "All patterns; a missing argument only shows when that parameter happens to be symbolic.", "anchors": [{"file": "src/thunder/src/robot.cpp", "symbols": ["Robot::add_function", "Robot::obtain_symb_parameters", "robot_from_file"]}, {"file": "src/thunder/src/kinematics.cpp", "symbols": ["compute_chain"]}, {"file": "src/thunder/src/dynamics.cpp", "symbols": ["compute_MCG"]}, {"file": "src/thunder/src/regressors.cpp", "symbols": ["compute_Yr"]}]}
{"id": "C36", "title": "Generated wrapper feeds the generated code the configured parameters", "statement": "After thunder_robot::load_conf(file) with the file used for generation, every generated getter returns the same value as Robot::get on the generating Robot.", "quantifier": "for every configuration and symbolic pattern", "why_tests_cant": "Needs partially symbolic inertial parameters, a pattern no shipped example has.", "anchors": [{"file": "src/thunder/thunder_robot_template/thunder_robot.cpp", "symbols": ["thunder_robot::load_conf"]}, {"file": "src/thunder/src/utils.cpp", "symbols": ["change_to_robot"]}, {"file": "src/thunder/src/robot.cpp", "symbols": ["Robot::add_function"]}]}
{"id": "C37", "title": "Robot::get_par_DYN and set_par_DYN work after symbolic selectivity", "statement": "After robot_from_file, get_par_DYN returns the configured inertial parameters and set_par_DYN accepts a full vector.", "quantifier": "for every configuration and symbolic pattern", "why_tests_cant": "Only visible for patterns with a numeric inertial parameter; the read returns uninitialised memory.", "anchors": [{"file": "src/thunder/src/robot.cpp", "symbols": ["Robot::get_par_DYN", "Robot::set_par_DYN", "Robot::update_symb_parameters"]}]}
{"id": "C38", "title": "parse_config rejects malformed configurations cleanly", "statement": "For every YAML tree, constructing a Robot either succeeds or reports an error; it never reads or writes outside a vector.", "quantifier": "for every YAML document", "why_tests_cant": "All documents; the size check happens after the out-of-range access.", "anchors": [{"file": "src/thunder/src/robot.cpp", "symbols": ["Robot::parse_config", "Robot::initVarsFuns"]}]}
{"id": "C39", "title": "load_conf_par stores the file's parameters link by link", "statement": "For a well-formed file, after load_conf_par entry 10i+k of par_DYN is the k-th inertial value of the i-th link, par_Dl/K/D/Dm/Mm likewise, extra links are ignored and par_REG is the REG image.", "quantifier": "for every well-formed file and every number of links in it", "why_tests_cant": "All files and link counts.", "anchors": [{"file": "src/thunder/src/robot.cpp", "symbols": ["Robot::load_conf_par"]}]}
{"id": "C40", "title": "thunder_robot::save_par_REG then load_par_REG restores par_REG", "statement": "Loading a file written by save_par_REG into any thunder_robot of the same type gives par_REG of the saved object, and par_DYN its DYN image.", "quantifier": "for every pair of object states", "why_tests_cant": "All parameter vectors and all states of the receiving object.", "anchors": [{"file": "src/thunder/thunder_robot_template/thunder_robot.cpp", "symbols": ["thunder_robot::save_par_REG", "thunder_robot::load_par_REG", "thunder_robot::fillInertialYaml"]}]}
{"id": "C41", "title": "thunder_robot::save_par_DYN then load_conf restores par_DYN and par_Dl", "statement": "Loading with load_conf a file written by save_par_DYN restores par_DYN and par_Dl of the saved object and leaves the kinematic parameters alone.", "quantifier": "for every pair of object states", "why_tests_cant": "All vectors and states.", "anchors": [{"file": "src/thunder/thunder_robot_template/thunder_robot.cpp", "symbols": ["thunder_robot::save_par_DYN", "thunder_robot::load_conf", "thunder_robot::fillInertialYaml"]}]}
{"id": "C42", "title": "Robot::save_par_REG then Robot::load_par_REG restores par_REG", "statement": "Loading a file written by Robot::save_par_REG with Robot::load_par_REG restores par_REG.", "quantifier": "for every robot state", "why_tests_cant": "The two sides use different YAML layouts; the failure is silent (zeros).", "anchors": [{"file": "src/thunder/src/robot.cpp", "symbols": ["Robot::save_par_REG", "Robot::load_par_REG"]}]}
{"id": "C43", "title": "Robot::save_par then load_par restores the listed arguments", "statement": "save_par(file, L) followed by load_par(file, L) (or an empty list) on a robot with the same argument sizes restores exactly the arguments in L and changes no other.", "quantifier": "for every list L and every pair of robot states", "why_tests_cant": "All lists and states.", "anchors": [{"file": "src/thunder/src/robot.cpp", "symbols": ["Robot::save_par", "Robot::load_par"]}]}
{"id": "C44", "title": "add_function protects existing entries when overwrite is false", "statement": "add_function(name,…,overwrite=false) returns 0 and changes nothing if name already exists in the model (functions and arguments alike); with overwrite, or a fresh name, it returns 1 and afterwards get(name) evaluates the new expression.", "quantifier": "for every robot state, name and expression", "why_tests_cant": "Frame condition over all states.", "anchors": [{"file": "src/thunder/src/robot.cpp", "symbols": ["Robot::add_function", "Robot::get"]}]}
{"id": "C45", "title": "replace_all replaces every non-overlapping occurrence, left to right", "statement": "For a non-empty pattern replace_all terminates and yields the text with each leftmost non-overlapping occurrence of the pattern replaced; for an empty pattern it never terminates.", "quantifier": "for every source, pattern and replacement string", "why_tests_cant": "All strings; non-termination cannot be observed by a test.", "anchors": [{"file": "src/thunder/src/utils.cpp", "symbols": ["replace_all"]}]}
{"id": "C46", "title": "Template instantiation declares and defines exactly the registered functions", "statement": "For every robot the generated header declares and the generated source defines one get_<name> per registered function with the same return type, and the pointer array passed to the C function lists the arguments in the order of the CasADi function's inputs.", "quantifier": "for every robot and every set of registered functions", "why_tests_cant": "All function sets and names.", "anchors": [{"file": "src/thunder/src/utils.cpp", "symbols": ["change_to_robot", "get_ret_type"]}, {"file": "src/thunder/src/robot.cpp", "symbols": ["Robot::get_functions"]}]}
{"id": "C47", "title": "The robot name and path are parsed from <dir>/<name>.yaml", "statement": "For every path of the form dir/name.yaml (or name.yaml) main uses robot_name = name and path_robot = dir/ (or ./).", "quantifier": "for every directory and name string", "why_tests_cant": "All strings; find_last_of searches a character set, so correctness depends on the last characters.", "anchors": [{"file": "src/thunder/thunder_main.cpp", "symbols": ["main"]}]}
{"id": "C48", "title": "The generator's exit status signals success with 0", "statement": "thunder gen exits with status 0 iff the library was generated.", "quantifier": "for every invocation", "why_tests_cant": "Every failing path must be distinguished from the successful one.", "anchors": [{"file": "src/thunder/thunder_main.cpp", "symbols": ["main"]}]}
{"id": "C49", "title": "Generated getters are safe to call concurrently", "statement": "When several threads call generated getters of the same object concurrently and nobody calls a setter, each call returns the value it would return alone.", "quantifier": "for every number of threads, every set of calls and every interleaving", "why_tests_cant": "Interleavings are unbounded.", "anchors": [{"file": "src/thunder/src/utils.cpp", "symbols": ["change_to_robot"]}]}
{"id": "C50", "title": "rpyRot and FrameOffset::get_rotation return rotations", "statement": "The returned matrix is orthonormal with determinant 1 for every angle triple.", "quantifier": "for every roll, pitch, yaw", "why_tests_cant": "A sign error that vanishes when sin(yaw)·sin(roll)=0, the only case in the shipped files.", "anchors": [{"file": "src/thunder/src/utils.cpp", "symbols": ["rpyRot"]}, {"file": "src/thunder/src/FrameOffset.cpp", "symbols": ["FrameOffset::get_rotation", "FrameOffset::get_transform"]}, {"file": "src/thunder/thunder_robot_template/thunder_robot.cpp", "symbols": ["thunder_robot::rpyRot"]}]}
{"id": "C51", "title": "mergeBodyInertial adds barycentric parameters", "statement": "The merged body's REG parameters (mass, m·CoM, inertia about the frame origin) are the sums of those of the two bodies, so merging is commutative and associative; total mass must be non-zero.", "quantifier": "for every pair (triple) of bodies", "why_tests_cant": "All real parameters.", "anchors": [{"file": "src/thunder/src/utils.cpp", "symbols": ["mergeBodyInertial", "createI", "hat"]}]}
{"id": "C52", "title": "transformBodyInertial is a change of frame", "statement": "For rotations given by rpyRot the transformed body has the same mass, its CoM is d+R·CoM and its inertia is conjugated by the composed rotation, so it keeps symmetry, trace and positive semidefiniteness.", "quantifier": "for every body, displacement and rotation", "why_tests_cant": "All real parameters.", "anchors": [{"file": "src/thunder/src/utils.cpp", "symbols": ["transformBodyInertial", "rpyRot", "createI"]}]}
{"id": "C53", "title": "get of an unknown name is harmless and get never changes state", "statement": "get(name) for an unregistered name returns the 1x1 zero matrix; get never changes a later result.", "quantifier": "for every robot state and name", "why_tests_cant": "All states and call sequences.", "anchors": [{"file": "src/thunder/src/robot.cpp", "symbols": ["Robot::get"]}]}
{"id": "C54", "title": "The mass and Coriolis matrices do not depend on where the robot is mounted", "statement": "get(\"M\") and get(\"C\") are unchanged by any change of world2L0; get(\"G\") depends on world2L0 and gravity only through the gravity vector expressed in frame L0.", "quantifier": "for every robot, configuration and pair of base placements", "why_tests_cant": "Invariance under a six-parameter group action.", "anchors": [{"file": "src/thunder/src/dynamics.cpp", "symbols": ["compute_MCG"]}, {"file": "src/thunder/src/kinematics.cpp", "symbols": ["compute_chain"]}]}
{"id": "C55", "title": "A thunder_robot setter given a vector of the right size stores it and touches nothing else", "statement": "Calling set_q .. set_w, setArguments or set_par_* with vectors of the sizes of the members (for set_par_DHtable: as one column) makes the members of these names equal to the given vectors; apart from the other inertial parametrisation, recomputed when the update flag is set, every other member is unchanged.", "quantifier": "for every state reachable by any history of calls, every setter and every vector of the right size", "why_tests_cant": "Frame condition over all members and all reachable states.", "anchors": [{"file": "src/thunder/thunder_robot_template/thunder_robot.cpp", "symbols": ["thunder_robot::set_q", "thunder_robot::setArguments", "thunder_robot::set_par_K", "thunder_robot::set_par_DHtable"]}]}
{"id": "C56", "title": "A robot built from a file returns the frames of the mechanism in the file", "statement": "After robot_from_file on a well-formed configuration and any use of the robot, get(\"T_0\"), get(\"T_i\"), get(\"T_0_i\"), get(\"T_0_ee\") return the Denavit-Hartenberg frames built from the numbers of the file (with the current values of the symbolic parameters) at the current joint positions; every state can be reached.", "quantifier": "for every well-formed configuration, every history of calls, every current value of the variables and symbolic parameters", "why_tests_cant": "All files, histories and values.", "anchors": [{"file": "src/thunder/src/robot.cpp", "symbols": ["robot_from_file", "Robot::add_function", "Robot::get"]}, {"file": "src/thunder/src/kinematics.cpp", "symbols": ["compute_chain"]}]}
{"id": "C57", "title": "A robot built from a file returns the Jacobians of the mechanism in the file", "statement": "In the same setting, with numeric angles whose folded cosine and sine lie on the unit circle, J_i, J_ee and J_cm_i are the geometric Jacobians of the frames and centres of mass, J_ee_dot and J_ee_ddot their derivatives along every motion with the current velocity and acceleration, and J_ee_pinv the damped least-squares inverse.", "quantifier": "for every well-formed configuration, history, state and motion", "why_tests_cant": "Derivatives along all motions.", "anchors": [{"file": "src/thunder/src/kinematics.cpp", "symbols": ["compute_jacobians", "compute_kin_adv"]}, {"file": "src/thunder/src/robot.cpp", "symbols": ["robot_from_file", "Robot::get"]}]}
{"id": "C58", "title": "A robot built from a file returns the equations of motion of the mechanism in the file", "statement": "In the same setting M, C (and C_std) and G are the mass matrix, Coriolis matrix and gravity vector obtained from the kinetic and potential energy of the links of the file; M ddq + C dq + G satisfies the Lagrange equations and the power balance; M_dot to G_ddot are their derivatives along motions.", "quantifier": "for every well-formed configuration, history, state and motion", "why_tests_cant": "Identities between derivatives along all motions.", "anchors": [{"file": "src/thunder/src/dynamics.cpp", "symbols": ["compute_MCG", "compute_dyn_derivatives"]}, {"file": "src/thunder/src/robot.cpp", "symbols": ["robot_from_file", "Robot::get"]}]}
{"id": "C59", "title": "The regressors of a robot built from a file reproduce the mechanism for all parameters", "statement": "In the same setting Yr, reg_M, reg_C, reg_G multiplied by the barycentric parameters of any inertial parameters give the inverse dynamics of the mechanism with those parameters; the columns of reg_Jdq and reg_JTw are the derivatives of J dq and J^T w with respect to the symbolic kinematic parameters in file order.", "quantifier": "for every well-formed configuration, history, state and parameter vector", "why_tests_cant": "All real parameters.", "anchors": [{"file": "src/thunder/src/regressors.cpp", "symbols": ["compute_Yr", "compute_reg_J"]}, {"file": "src/thunder/src/robot.cpp", "symbols": ["robot_from_file", "Robot::get"]}]}
{"id": "C60", "title": "A robot built from a file returns the friction and elastic terms described in the file", "statement": "In the same setting dl, Dl_i, k, K_i, d, D_i, dm, Dm_i and Mm are the friction, spring, damper and motor terms with the coefficients of the file, joint by joint (springs and dampers act on the first links, see C21), and reg_dl, reg_k, reg_d, reg_dm and reg_Mm split them into a part linear in the symbolic coefficients and the part of the numeric ones.", "quantifier": "for every well-formed configuration, history and state", "why_tests_cant": "All coefficients and states.", "anchors": [{"file": "src/thunder/src/dynamics.cpp", "symbols": ["compute_Dl", "compute_elastic"]}, {"file": "src/thunder/src/regressors.cpp", "symbols": ["compute_reg_Dl", "compute_reg_elastic"]}]}
{"id": "C61", "title": "The generated class returns the mechanism described by the file", "statement": "Generate the class from a well-formed file and take any object of it whose member vectors hold some values of the variables of motion and begin with some values of the symbolic parameters. Every getter then returns what get returns on a robot built from the same file with the same values, hence the frames, Jacobians, dynamics, regressors, friction and elastic terms of the mechanism (C56-C60). Every such state can be reached from a new object by load_conf and the setters; when the symbolic parameters of links and actuators come first in their vectors, load_conf alone is enough, in any order with the setters of the variables.", "quantifier": "for every well-formed configuration and every state of the object", "why_tests_cant": "All mechanisms, all symbolic patterns, all values and all orders of calls.", "anchors": [{"file": "src/thunder/src/utils.cpp", "symbols": ["change_to_robot"]}, {"file": "src/thunder/thunder_robot_template/thunder_robot.cpp", "symbols": ["load_conf", "set_par_DYN", "set_par_DHtable", "set_q"]}]}
{"id": "C62", "title": "thunder gen leaves exactly the promised files", "statement": "For a well-formed robot file, a robot that can be built, installed templates and a directory that can be written, thunder gen has one outcome: it returns 1 and the directory NAME_generatedFiles contains the C code of every registered function, the class with one getter for each (with its Python bindings and build file if asked for), the configuration that was read and the linear inertial parameters of the mechanism, and the stored CasADi functions if asked for. No other file changes except the copies asked for with --copy. Whatever happens, nothing outside these places is written. The configuration, loaded by an object of the generated class, leads to the answers of C56-C61; the parameter document, loaded with load_par_REG, gives the inertial parameters of the robot file back when the masses are not zero. (A document that cannot be written is silently missing.)", "quantifier": "for every well-formed file, command line, disk and user function", "why_tests_cant": "All robots, all names and paths, all disks.", "anchors": [{"file": "src/thunder/thunder_main.cpp", "symbols": ["main", "copy_to"]}, {"file": "src/thunder/src/robot.cpp", "symbols": ["Robot::generate_library", "Robot::save_conf", "Robot::save_par_REG"]}, {"file": "src/thunder/src/utils.cpp", "symbols": ["update_cmake", "change_to_robot"]}, {"file": "src/thunder/thunder_robot_template/thunder_robot.cpp", "symbols": ["load_conf", "load_par_REG"]}]}
{"id": "C63", "title": "The returned matrices determine the accelerations", "statement": "For a robot built from a well-formed file whose links are physical (no negative mass, positive semidefinite inertia) and each of which opposes its own joint (positive mass for a prismatic joint, positive moment of inertia about the joint axis for a revolute one), the matrix returned for M is symmetric, positive definite and invertible in every configuration, so that M a + C dq + G = tau has exactly one solution a for every tau; there is only one answer for each name, and M_dot - 2C, made of the returned matrices, is skew-symmetric. If the last link does not oppose its joint, M is singular everywhere.", "quantifier": "for every well-formed configuration, parameters and state", "why_tests_cant": "All mechanisms, all inertial parameters and all positions: singularity is a matter of measure zero in a test.", "anchors": [{"file": "src/thunder/src/dynamics.cpp", "symbols": ["compute_MCG"]}, {"file": "src/thunder/src/robot.cpp", "symbols": ["Robot::get"]}]}
{"id": "C64", "title": "The returned equations of motion balance energy", "statement": "If a motion obeys the equations of motion made of the values returned at each time (M, C, G, friction; for elastic joints also Mm, k, d, dm), the energy of links, gravity, motors and springs changes by the power of the applied torques minus the power of link friction, motor friction and dampers; these are not negative for non-negative coefficients, so that without applied torques the energy never grows.", "quantifier": "for every well-formed configuration and every differentiable motion", "why_tests_cant": "A statement about all motions, not about values at points.", "anchors": [{"file": "src/thunder/src/dynamics.cpp", "symbols": ["compute_MCG", "compute_elastic"]}, {"file": "src/thunder/src/robot.cpp", "symbols": ["Robot::get"]}]}
{"id": "C65", "title": "The robot files of the repository", "statement": "Every robot file of the repository in the current layout is accepted by robot_from_file under its own name, with exactly the contents of the file; its links have positive mass and positive semidefinite inertia, no friction coefficient is negative, and every symbolic parameter is loaded back by the generated class. Hence the returned mass matrices are positive definite, the returned equations of motion have one solution, and a free rigid robot never gains energy. k and d act between each motor and the link of its own joint in every file. The files R15 and R30 are accepted too.", "quantifier": "for every robot file in src/thunder/robots and robots, every state and every sequence of calls", "why_tests_cant": "The statements about the robots hold for all states and motions.", "anchors": [{"file": "src/thunder/src/robot.cpp", "symbols": ["robot_from_file", "Robot::parse_config", "Robot::load_conf_par"]}, {"file": "src/thunder/src/dynamics.cpp", "symbols": ["compute_elastic"]}, {"file": "src/thunder/robots/frankaWrist/frankaWrist.yaml", "symbols": ["type_joints", "elastic"]}, {"file": "src/thunder/robots/testRobots/R15.yaml", "symbols": ["num_joints"]}]}
{"id": "C66", "title": "Splitting a robot file into parameter files", "statement": "genInertial_files, called with the number of joints of a robot file, writes two files: one lists the links with the inertial parameters of the robot file, the other with their linear parameters (mass, mass times centre of mass, inertia at the frame); loading them into an object of the generated class stores these parameters. When a file cannot be read it writes nothing and returns 0. It never accesses memory outside its vectors.", "quantifier": "for every robot file (YAML tree), every number of joints and every pair of output paths", "why_tests_cant": "Robot files and their link names, parameters and friction orders are unbounded; the failures need files with friction, equal link names or another number of joints.", "anchors": [{"file": "src/thunder/src/genYaml.cpp", "symbols": ["genInertial_files", "fillInertialYaml"]}, {"file": "src/thunder/thunder_robot_template/thunder_robot.cpp", "symbols": ["load_par_REG", "load_conf"]}]}
{"id": "C67", "title": "Rounded cosines and sines of numeric angles", "statement": "When the cosine and the sine computed for the numeric angles of the file have an error of at most eps, the frames, Jacobians, M, C, G and torques returned differ from those of the mechanism with exact angles by at most (1+2(eps+1e-15))^m - 1, with m linear in the number of joints, times the size of the quantity. M is still positive definite, with one solution of the equations of motion, if the inertia of each link at its own joint exceeds the error; this is so for every robot file of the repository with eps = 1e-15. Whatever the cosines and sines, M is symmetric and positive semidefinite, C is the matrix of its Christoffel symbols, M_dot its rate, and M ddq + C dq has as power the rate of 1/2 dq^T M dq.", "quantifier": "for every robot file, every sequence of calls, every state and every bound eps", "why_tests_cant": "The error bounds hold for all mechanisms, all states and all roundings of the folded constants; tests compare a few states with a tolerance.", "anchors": [{"file": "src/thunder/src/kinematics.cpp", "symbols": ["ZIS", "get_transform", "DHTemplate"]}, {"file": "src/thunder/src/dynamics.cpp", "symbols": ["DHJacCM", "compute_MCG", "compute_dyn_derivatives"]}]}
{"id": "C68", "title": "Inertial parameters from URDF frames to Denavit-Hartenberg frames", "statement": "genYAML reads the bodies of inertial.yaml, given in the frames of a URDF file, and writes them for links 1 to 7 as seen from the Denavit-Hartenberg frames of the table in its comment: the mass unchanged, a centre of mass and an inertia tensor that, expressed in the URDF frame, are those of the file turned by its roll, pitch and yaw angles. The file for the regressor lists the linear parameters of the same bodies, and the perturbed files those of bodies whose numbers are multiplied by one plus the noise drawn. It writes all files or reports an error, without accessing memory outside its vectors, and what it writes can be loaded by the generated class.", "quantifier": "for every input file (YAML tree), every reader of the texts with numbers and every sequence of random numbers", "why_tests_cant": "Bodies, angles, missing entries and random numbers are unbounded; the only input file of the repository has angles equal to zero and all entries present.", "anchors": [{"file": "src/genYAML/main_YAML.cpp", "symbols": ["main", "perturbateLinkProp", "fillInertialYaml"]}, {"file": "src/genYAML/src/urdf2dh_inertial.cpp", "symbols": ["transformBodyInertial", "createI", "rpyRot", "hat"]}]}
{"id": "C69", "title": "The program thunder_test", "statement": "For a robot file, thunder_test prints the kinematic, inertial, friction and elastic parameters of the file; the frames and Jacobians of the tool and of the first three links, the mass matrix, the Coriolis matrices, the gravity terms and the friction and elastic terms of the mechanism of the file, all at joint coordinates one and at rest; and a difference between model and regressor that is zero. It does not end with an uncaught exception or undefined behaviour.", "quantifier": "for every well-formed robot file", "why_tests_cant": "The program is a test with one file, one configuration and velocities and accelerations that are zero; which numbers it would print for other files is not tested by it, nor does its last line depend on the mass and Coriolis matrices.", "anchors": [{"file": "src/thunder/thunder_test.cpp", "symbols": ["main"]}, {"file": "src/thunder/src/robot.cpp", "symbols": ["robot_from_file", "Robot::get", "Robot::get_par_DYN", "Robot::get_par_REG", "Robot::set_x"]}]}
{"id": "C70", "title": "The program thunder_robot_test", "statement": "For a class generated from a robot file and a configuration file of the same form, thunder_robot_test prints the inertial parameters, the parameters of the regressor and of friction and the symbolic offsets of the file it reads; the frame and the Jacobian of the tool, the mass matrix, the Coriolis matrix, the gravity term and the regressor of the mechanism of this file at joint coordinates one and at rest; the torque computed from the matrices, the torque computed with the regressor, and a difference that is zero. It does not access memory outside its vectors, also when the file cannot be read.", "quantifier": "for every two well-formed robot files of the same form, and for a file that cannot be read", "why_tests_cant": "The program is a test with one class, one file and one configuration; files in which some inertial parameters are symbolic and pairs of different files are unbounded, and its last line depends neither on the mass nor on the Coriolis matrix.", "anchors": [{"file": "src/thunder_robot/thunder_robot_test.cpp", "symbols": ["main"]}, {"file": "src/thunder/thunder_robot_template/thunder_robot.cpp", "symbols": ["load_conf", "setArguments", "get_par_REG", "get_par_DYN", "get_par_Dl"]}, {"file": "src/thunder/src/utils.cpp", "symbols": ["change_to_robot"]}]}
{"id": "C71", "title": "Loading another file into an object of the generated class", "statement": "Into an object of the class generated from one robot file another file with the same joints, orders and selection of symbolic parameters is loaded. Afterwards every getter answers for the mechanism whose symbolic parameters are those of the file loaded and whose numeric parameters are those of the file the class was generated from. If the numeric parameters of the two files agree and symbolic parameters of links and actuators come first, this is the mechanism of the file loaded; if nothing is symbolic, loading does not change any answer.", "quantifier": "for every two well-formed robot files of the same form, every sequence of loads and settings of variables with at least one load, and every getter", "why_tests_cant": "The pairs of files are unbounded, and a test loads the file from which the class was generated, for which the numeric parameters agree trivially.", "anchors": [{"file": "src/thunder/thunder_robot_template/thunder_robot.cpp", "symbols": ["load_conf"]}, {"file": "src/thunder/src/utils.cpp", "symbols": ["change_to_robot"]}]}
{"id": "C72", "title": "The programs that measure times", "statement": "thunder_test_chrono builds the robots of its list one after the other and prints for each how long seven functions take; thunder_robot_test_chrono does the same with the getters of a generated class. Every measured call computes the matrix of the mechanism with all variables of motion one, the programs do not end with an exception or undefined behaviour, and the time printed for a function is the shortest of the durations that were measured (in the second program the shortest positive one).", "quantifier": "for every list of well-formed robot files, every class and file of the same form, and every sequence of readings of the clock", "why_tests_cant": "The readings of the clock are not under the control of a test, and which of them is printed depends on all of them; the slow and the too fast case do not occur with the robots of the repository.", "anchors": [{"file": "src/thunder/thunder_test_chrono.cpp", "symbols": ["main"]}, {"file": "src/thunder_robot_chrono/thunder_robot_test_chrono.cpp", "symbols": ["main"]}]}
{"id": "C73", "title": "Changing symbolic parameters at run time", "statement": "After an object of the generated class has loaded the robot file, set_par_gravity, set_par_world2L0, set_par_Ln2EE and set_par_DHtable, given one number for each symbolic entry, change exactly these entries, in their order; every getter then answers for the mechanism with the new values, in any order with settings of the variables and further loads. The setters of links and actuators do the same. When all inertial parameters are symbolic, set_par_DYN and set_par_REG make the object answer for the bodies given, and Yr times the vector given to set_par_REG equals the torque from the returned M, C and G (adaptive control).", "quantifier": "all well-formed robot files and patterns of symbolic parameters, all histories of loads and settings, all values", "why_tests_cant": "The pattern of symbolic entries decides which numbers the generated code reads and which sizes the setters accept; patterns, histories and values cannot be enumerated.", "anchors": [{"file": "README.md", "symbols": ["Symbolic selectivity of parameters"]}, {"file": "src/thunder/thunder_robot_template/thunder_robot.cpp", "symbols": ["set_par_gravity", "set_par_world2L0", "set_par_Ln2EE", "set_par_DHtable", "set_par_DYN", "set_par_REG", "load_conf"]}, {"file": "src/thunder/src/utils.cpp", "symbols": ["change_to_robot"]}]}
{"id": "C74", "title": "Adaptive control with the returned regressor is stable", "statement": "A mechanism with the geometry and friction of the robot file and unknown bodies, driven from time 0 on by Yr(q,dq,dqr,ddqr)*est + dl - K*s with s = dq - dqr and the estimate changing by -Gamma*Yr^T*s, where Yr and dl are the values returned at each time by the robot or the generated class, satisfies V' = -s^T K s for V = (s^T M s + e^T Gamma^-1 e)/2, e being the error of the estimate. Hence with positive gains and bodies of positive inertia the error of the estimate stays bounded, s tends to zero when the accelerations are bounded, and with dqr = d' - l (q - d) the positions tend to the desired motion d. With the true parameters and no learning s^T M s / 2 loses s^T K s.", "quantifier": "all well-formed robot files, true bodies, estimates, gains, reference signals and motions", "why_tests_cant": "The claim relates the returned values at all times of all closed-loop motions, for all unknown bodies; it depends on the particular factorisation of the Coriolis matrix used in Yr and not only on the torque.", "anchors": [{"file": "src/thunder/thunder_robot_template/thunder_robot.h", "symbols": ["thunder_robot", "get_Yr"]}, {"file": "src/thunder/src/regressors.cpp", "symbols": ["compute_Yr"]}, {"file": "src/thunder/src/dynamics.cpp", "symbols": ["compute_MCG", "compute_Dl", "compute_dyn_derivatives"]}]}
{"id": "C75", "title": "The generated class has the constants of the robot file", "statement": "For every well-formed robot file, every choice of functions added by the user and every accepted robot name, the generated header declares the class thunder_<name> with exactly the constant members of the template, in order, with the values of the file: the number of joints, whether the model is elastic, the number of elastic joints, the orders of the four polynomial models, the numbers of parameters, for each joint whether it is elastic, and the name. The generated source includes the header of the class and that of the generated library; with Python bindings it defines the module thunder_<name>_py and the build file makes that module of the two generated sources. The header is inside an include guard exactly when the name does not contain THUNDERROBOT.", "quantifier": "all well-formed robot files, robot names and functions of the user", "why_tests_cant": "The texts are made by chains of textual replacements whose results are again subject to the later replacements; a test sees a handful of names and configurations.", "anchors": [{"file": "src/thunder/src/utils.cpp", "symbols": ["change_to_robot", "replace_all", "update_cmake"]}, {"file": "src/thunder/thunder_robot_template/thunder_robot.h", "symbols": ["n_joints", "K_order", "D_order", "Dl_order", "Dm_order", "isElasticJoint"]}, {"file": "src/thunder/thunder_robot_template/CMakeLists.txt", "symbols": ["pybind11_add_module"]}]}
{"id": "C76", "title": "Rounding errors of the returned values are of the order of the unit roundoff", "statement": "If every floating-point operation has a relative error of at most u for results between u and 1/u, an absolute error of at most u^2 for smaller ones (underflow) and any outcome for larger ones (overflow), and matrices are inverted by a backward-stable algorithm, then for every function of the library, and as long as the variables of motion and the symbolic parameters stay below a bound b, each entry of the answer of the robot or of an object of the generated class differs from the exact one by at most K*u for all sufficiently small u, with one constant K for all states, all values of the symbolic parameters and all machines. With u = 0 the answers are exact. The defect of symmetry of the computed mass matrix is at most K*u, and with physical links that oppose their joints the computed mass matrix is positive definite, hence invertible, for small u.", "quantifier": "all well-formed robot files, bounds, states, parameters and machines", "why_tests_cant": "Nothing in the expressions may amplify the errors without limit (a division by an expression that can vanish, a square root at zero that is differentiated); tests with one machine and a few states do not show a uniform bound.", "anchors": [{"file": "src/thunder/src/robot.cpp", "symbols": ["get"]}, {"file": "src/thunder/src/utils.cpp", "symbols": ["change_to_robot"]}, {"file": "src/thunder/src/dynamics.cpp", "symbols": ["compute_MCG", "compute_dyn_derivatives"]}, {"file": "src/thunder/src/kinematics.cpp", "symbols": ["compute_chain", "compute_jacobians"]}, {"file": "src/thunder/src/regressors.cpp", "symbols": ["compute_Yr"]}]}
{"id": "C77", "title": "The constants of a robot are those of its file at all times", "statement": "After robot_from_file, with any functions of the user and whether or not the functions are computed, and after any calls on the robot, also ones that throw, the getters for the number of joints, their types, elasticity, the elastic joints and their number, the orders of the polynomial models and the numbers of parameters give the values of the file, and robotName is the name given.", "quantifier": "all well-formed robot files, names, functions of the user and histories of calls", "why_tests_cant": "Histories of calls are unbounded, and the loaders read other files with other sizes.", "anchors": [{"file": "src/thunder/src/robot.cpp", "symbols": ["get_numJoints", "get_ELASTIC", "get_K_order", "get_isElasticJoint", "get_numElasticJoints", "get_numParDYN", "get_jointsType"]}]}
{"id": "C78", "title": "FrameOffset getters are defined on every object", "statement": "The constructors of FrameOffset accept exactly vectors of three numbers; after any calls of the setters get_translation, get_gravity, get_ypr and get_rotation use the vector given last, and no getter reads outside of a vector; hat(v) w is the vector product of v and w.", "quantifier": "all vectors and sequences of calls", "why_tests_cant": "Reading past the end of a vector is undefined and need not show; sequences of calls are unbounded.", "anchors": [{"file": "src/thunder/src/FrameOffset.cpp", "symbols": ["FrameOffset", "set_ypr", "set_translation", "set_gravity", "get_rotation", "get_transform", "hat"]}]}
{"id": "C79", "title": "Controllers that use the returned matrices do what they are designed for", "statement": "A mechanism with the parameters of the robot file and positive definite mass matrix, driven from time 0 on by M*a + C*dq + G + dl with the values returned at each time, has the accelerations a; with a = d'' - kd (dq - d') - kp (q - d) and positive gains, (dq - d')^2 + kp (q - d)^2 of every joint is at most 5 times its initial value times exp(-min(kd/3, kp/kd) t). Driven by G - kp (q - p) - kd dq with the returned G, its kinetic energy plus sum kp (q - p)^2 / 2 changes by minus the power of damping and friction, and with positive gains and non-negative friction coefficients it comes to rest at p from every initial position and velocity.", "quantifier": "all well-formed robot files with links of positive inertia, gains, desired motions, goals and motions", "why_tests_cant": "The claim concerns the limit of all closed-loop motions; a simulation shows one motion for a finite time.", "anchors": [{"file": "src/thunder/src/dynamics.cpp", "symbols": ["compute_MCG", "compute_Dl"]}, {"file": "src/thunder/src/robot.cpp", "symbols": ["Robot::get"]}, {"file": "src/thunder/thunder_robot_template/thunder_robot.h", "symbols": ["thunder_robot"]}]}
{"id": "C80", "title": "Simulation and control with rounded answers are as accurate as the arithmetic", "statement": "Within any bound on the motion and the symbolic parameters there are constants K and u0 such that on every machine as in C76 with u <= u0: the equation of motion made of the computed M, C, G and dl has a solution, and accelerations that solve it up to a residual r differ from the true ones by at most K (u + r); torques M a + C dq + G + dl made of the computed terms give accelerations that differ from a by at most K u; and with a = d'' - kd (dq - d') - kp (q - d) and positive gains, (dq - d')^2 + kp (q - d)^2 of every joint is at most 5 times its initial value times exp(-l t / 2) plus 12 (K u / l)^2, where l = min(kd/3, kp/kd). The same constants serve the robot and the objects of the generated class.", "quantifier": "all well-formed robot files with links of positive inertia, bounds, machines, states, torques, gains and motions within the bound", "why_tests_cant": "A simulation shows the errors of one arithmetic along one motion; the claim gives a bound for all of them.", "anchors": [{"file": "src/thunder/src/dynamics.cpp", "symbols": ["compute_MCG", "compute_Dl"]}, {"file": "src/thunder/src/robot.cpp", "symbols": ["Robot::get"]}, {"file": "src/thunder/src/utils.cpp", "symbols": ["change_to_robot"]}]}
{"id": "C81", "title": "Errors of measured inputs and converted parameters are not amplified beyond a constant", "statement": "Within any bound on the variables and the symbolic parameters there are constants K and u0 such that a robot or object holding values off by at most d, on every machine as in C76 with u + d <= u0, returns every function of the library within K (u + d) of its value for the true variables and parameters. The linear inertial parameters computed on the machine by update_inertial_REG differ from the exact ones by at most K u; with masses of at least a given positive number, so do the parameters computed by update_inertial_DYN, and both conversions one after the other in either order give back the parameters up to K u. After set_par_REG on an object all of whose inertial parameters are symbolic, every function of the library is returned within K u of its exact value for the bodies with these linear parameters.", "quantifier": "all well-formed robot files, bounds, least masses, machines, states, parameters and errors of the inputs", "why_tests_cant": "A test sees the error of one arithmetic at one point; the claim bounds it for all inputs within the bound and all arithmetics.", "anchors": [{"file": "src/thunder/src/robot.cpp", "symbols": ["Robot::update_inertial_REG", "Robot::update_inertial_DYN", "Robot::get"]}, {"file": "src/thunder/thunder_robot_template/thunder_robot.cpp", "symbols": ["set_par_REG", "update_inertial_REG", "update_inertial_DYN"]}]}
{"id": "C82", "title": "Control with measured values and approximate parameters has errors of their order", "statement": "Within any bound on the motion and the symbolic parameters there are constants K and u0 such that a controller whose robot or object holds positions, velocities and symbolic parameters off by at most d, on every machine as in C76 with u + d <= u0, has M, C, G and dl within K (u + d) of those of the mechanism; torques M a + C dq + G + dl made of them and of the measured velocities give accelerations that differ from a by at most K (u + d); and with a = d'' - kd (dq - d') - kp (q - d) made of measured values and positive gains, (dq - d')^2 + kp (q - d)^2 of every joint is at most 5 times its initial value times exp(-l t / 2) plus 12 ((K (u + d) + (kp + kd) d) / l)^2, where l = min(kd/3, kp/kd). The constants serve the robot and the objects of the generated class.", "quantifier": "all well-formed robot files with links of positive inertia, bounds, machines, errors of measurements and parameters, states, torques, gains and motions within the bound", "why_tests_cant": "A test has one sensor error along one motion; the claim bounds the tracking error for all of them.", "anchors": [{"file": "src/thunder/src/dynamics.cpp", "symbols": ["compute_MCG", "compute_Dl"]}, {"file": "src/thunder/src/robot.cpp", "symbols": ["Robot::get"]}, {"file": "src/thunder/src/utils.cpp", "symbols": ["change_to_robot"]}]}
{"id": "C83", "title": "Simulations with the library converge to the motion of the mechanism", "statement": "For every bound b and time T there are constants K and d0 such that, when a motion of the mechanism under torques tau stays within b up to T with accelerations that are Lipschitz with constant b, a simulation by the method of Euler with steps h, whose accelerations solve M a + C dq + G + dl = tau with the terms returned by the robot or an object of the generated class on a machine as in C76 at the simulated positions and velocities, up to a residual r, whose updates are off by at most h r and whose initial values by at most e, has positions and velocities within K (u + h + r + e) of those of the motion at all times k h <= T, as soon as u + h + r + e <= d0. The linear systems for the accelerations have solutions.", "quantifier": "all well-formed robot files with links of positive inertia, bounds, times, steps, machines, residuals, initial errors, torques and motions within the bound", "why_tests_cant": "A simulation with one step size shows one error; convergence is a statement about all step sizes and all motions.", "anchors": [{"file": "src/thunder/src/dynamics.cpp", "symbols": ["compute_MCG", "compute_Dl"]}, {"file": "src/thunder/src/robot.cpp", "symbols": ["Robot::get"]}, {"file": "src/thunder/src/utils.cpp", "symbols": ["change_to_robot"]}]}
{"id": "C84", "title": "Sampled computed torque control with the library keeps the mechanism near the reference", "statement": "For every bound b of a reference motion and its derivatives and every bound E of the initial errors there are constants K and d0 such that the following holds for every machine with error u as in C76, step h and measuring error delta with u + h + delta <= d0: when a controller reads positions and velocities (and knows the symbolic parameters) up to delta at the times 0, h, 2h, ..., computes M a + C dq + G + dl with the terms returned at that time, a = d'' - kd (dq - d') - kp (q - d), and holds these torques until the next reading, then for every motion of the mechanism under these torques and all t >= 0 the error (dq - d')^2 + kp (q - d)^2 of every joint is at most 5 times its initial value times exp(-l t / 2) plus 12 (K (u + h + delta) / l)^2, with l = min (kd/3) (kp/kd). No bound of the motion is assumed.", "quantifier": "all well-formed robot files with links of positive inertia, positive gains, references with bounded derivatives, initial errors, machines, steps, measuring errors and motions under the held torques", "why_tests_cant": "A closed loop run shows one motion for one step size and one reference for a finite time; that no motion escapes is a statement about all of them and all times.", "anchors": [{"file": "src/thunder/src/dynamics.cpp", "symbols": ["compute_MCG", "compute_Dl"]}, {"file": "src/thunder/src/robot.cpp", "symbols": ["Robot::get"]}, {"file": "src/thunder/src/utils.cpp", "symbols": ["change_to_robot"]}]}
{"id": "C85", "title": "Mounting the robot elsewhere or changing its tool moves the returned frames and Jacobians rigidly", "statement": "Take two robots (or objects of the generated classes) whose files differ only in world2L0 and gravity, in the same state. There is one rigid motion D, the one between the two bases, such that every T_0_i and T_0_ee of the second is D times that of the first, every J_i, J_cm_i, J_ee, J_ee_dot and J_ee_ddot is turned by the rotation of D, and J_ee_pinv is multiplied by the inverse of this turn on the right; the T_i, M, C, C_std, their rates, reg_M and reg_C are equal, and G, its rates, reg_G and Yr are equal when gravity turns with D. If the files differ only in Ln2EE, T_0_ee is multiplied on the right by the rigid motion D between the tools, the angular rows of J_ee are equal, the linear rows differ by the angular velocity times the displacement of the tool, and T_0_i, J_i, J_cm_i, M, C, C_std, G and the inertial regressors are equal.", "quantifier": "all well-formed robot files, other placements of the base or of the tool, gravity vectors, values of symbolic parameters and states, numeric angles with cosine and sine on the unit circle", "why_tests_cant": "A test compares two placements in some states; an error in one joint type or in a coupling of base rotation and link offset shows only for others.", "anchors": [{"file": "src/thunder/src/kinematics.cpp", "symbols": ["compute_chain", "compute_jacobians", "compute_kin_adv", "get_transform"]}, {"file": "src/thunder/src/dynamics.cpp", "symbols": ["compute_MCG"]}, {"file": "src/thunder/src/regressors.cpp", "symbols": ["compute_Yr"]}]}
{"id": "C86", "title": "Links do not depend on what follows them and do not load the joints after them", "statement": "Take two robots (or objects of the generated classes) whose files begin with the same k links on the same base, in states with the same first k joint coordinates, whatever follows these links. They return the same T_i for i in 1..k and T_0_i for i in 0..k, and the columns of the first k joints in J_i, and in J_cm_i when the centre of mass of link i is the same, are equal for i in 1..k. In every robot the columns of J_i and J_cm_i of the joints after i are zero, and the entries of Yr, reg_M, reg_C and reg_G in the row of a joint and the ten columns of a link before it are zero: the regressors are block upper triangular. Two robots that differ only in the inertial parameters of links before a joint return, for equal positions and velocities, the same row of this joint in M, C and C_std and the same entry of G.", "quantifier": "all well-formed robot files, all numbers of shared links, values of symbolic parameters and states; for Jacobians and regressors numeric angles with cosine and sine on the unit circle", "why_tests_cant": "A test compares some robots in some states; an index off by one in a loop over links or joints shows only for some numbers of joints, and an entry that should vanish may be small at the states tried.", "anchors": [{"file": "src/thunder/src/kinematics.cpp", "symbols": ["compute_chain", "compute_jacobians"]}, {"file": "src/thunder/src/dynamics.cpp", "symbols": ["compute_MCG"]}, {"file": "src/thunder/src/regressors.cpp", "symbols": ["compute_Yr"]}]}
{"id": "C87", "title": "Bodies fixed to the links add their inertia: the dynamics with a payload is the sum of the dynamics of the parts", "statement": "Take three robots (or objects of the generated classes) whose files differ only in the inertial parameters, in states with the same positions and velocities, such that every link of the first consists of the corresponding bodies of the other two fixed to each other: the masses add, the centre of mass is the weighted mean, and the inertia tensor about it follows from the parallel axis theorem. Then M, C, C_std and G of the first are the sums of those of the other two.", "quantifier": "all well-formed robot files, all inertial parameters of the two bodies of every link (also massless ones), positions and velocities, numeric angles with cosine and sine on the unit circle", "why_tests_cant": "A test compares some payloads in some states; a wrong sign in a product of inertia or a tensor taken about a wrong point shows only for bodies without symmetry and for some joint arrangements.", "anchors": [{"file": "src/thunder/src/dynamics.cpp", "symbols": ["compute_MCG"]}, {"file": "src/thunder/src/kinematics.cpp", "symbols": ["compute_chain", "compute_jacobians"]}]}
