{
 "claims": [
  {
   "property": "C01",
   "status": "proved",
   "theorems": [
    "Thunder.C01_link",
    "Thunder.C01_chain",
    "Thunder.C01_ee",
    "Thunder.C01_pairs",
    "Thunder.C01_get"
   ],
   "note": "Exact equality with the ideal chain when the folded cos/sin of each numeric angle are exact (symbolic angles need nothing); C01_pairs holds for every library cos/sin."
  },
  {
   "property": "C02",
   "status": "proved",
   "theorems": [
    "Thunder.C02_rigid",
    "Thunder.C02_get"
   ],
   "note": "Needs the folded, snapped (cos,sin) pair of every numeric angle to be on the unit circle; no hypothesis for symbolic angles."
  },
  {
   "property": "C03",
   "status": "proved",
   "theorems": [
    "Thunder.C03_linear",
    "Thunder.C03_get"
   ],
   "note": "Same hypothesis on numeric angles as C02."
  },
  {
   "property": "C04",
   "status": "proved",
   "theorems": [
    "Thunder.C04_angular",
    "Thunder.C03_get"
   ],
   "note": "Same hypothesis on numeric angles as C02."
  },
  {
   "property": "C05",
   "status": "proved",
   "theorems": [
    "Thunder.C05_ee",
    "Thunder.C05_get"
   ],
   "note": "Same hypothesis on numeric angles as C02."
  },
  {
   "property": "C06",
   "status": "proved",
   "theorems": [
    "Thunder.C06_causal",
    "Thunder.C06_get"
   ],
   "note": ""
  },
  {
   "property": "C07",
   "status": "proved",
   "theorems": [
    "Thunder.C07_dot",
    "Thunder.C07_ddot",
    "Thunder.C07_get"
   ],
   "note": ""
  },
  {
   "property": "C08",
   "status": "proved",
   "theorems": [
    "Thunder.C08_pinv",
    "Thunder.C08_get"
   ],
   "note": ""
  },
  {
   "property": "C09",
   "status": "proved",
   "theorems": [
    "Thunder.C09_numeric",
    "Thunder.C09_symbolic"
   ],
   "note": ""
  },
  {
   "property": "C10",
   "status": "proved",
   "theorems": [
    "Thunder.C10_symm",
    "Thunder.C10_get"
   ],
   "note": ""
  },
  {
   "property": "C11",
   "status": "proved",
   "theorems": [
    "Thunder.C11_psd",
    "Thunder.C11_get"
   ],
   "note": ""
  },
  {
   "property": "C12",
   "status": "proved",
   "theorems": [
    "Thunder.C12_kinetic",
    "Thunder.C12_energy",
    "Thunder.C58_matrices",
    "Thunder.C58_energy"
   ],
   "note": "Same hypothesis on numeric angles as C02."
  },
  {
   "property": "C13",
   "status": "proved",
   "theorems": [
    "Thunder.C13_christoffel",
    "Thunder.C13_get"
   ],
   "note": ""
  },
  {
   "property": "C14",
   "status": "proved",
   "theorems": [
    "Thunder.C14_std",
    "Thunder.C14_get"
   ],
   "note": ""
  },
  {
   "property": "C15",
   "status": "proved",
   "theorems": [
    "Thunder.C15_skew",
    "Thunder.C15_passive",
    "Thunder.C15_get"
   ],
   "note": ""
  },
  {
   "property": "C16",
   "status": "proved",
   "theorems": [
    "Thunder.C16_gradient",
    "Thunder.C58_lagrange"
   ],
   "note": "Same hypothesis on numeric angles as C02."
  },
  {
   "property": "C17",
   "status": "proved",
   "theorems": [
    "Thunder.C17_lagrange",
    "Thunder.C17_energy",
    "Thunder.C58_lagrange",
    "Thunder.C58_power"
   ],
   "note": "Same hypothesis on numeric angles as C02."
  },
  {
   "property": "C18",
   "status": "proved",
   "theorems": [
    "Thunder.C18_dot",
    "Thunder.C18_ddot",
    "Thunder.C18_get"
   ],
   "note": ""
  },
  {
   "property": "C54",
   "status": "proved",
   "theorems": [
    "Thunder.C54_MC",
    "Thunder.C54_G",
    "Thunder.C54_get"
   ],
   "note": ""
  },
  {
   "property": "C19",
   "status": "proved",
   "theorems": [
    "Thunder.C19_law",
    "Thunder.C19_odd",
    "Thunder.C19_zero",
    "Thunder.C19_dissipative",
    "Thunder.C19_get"
   ],
   "note": "friction law of the registered dl, odd, zero at rest, dissipative for nonnegative coefficients"
  },
  {
   "property": "C20",
   "status": "proved",
   "theorems": [
    "Thunder.C20_k_odd",
    "Thunder.C20_k_mono",
    "Thunder.C20_k_gradient",
    "Thunder.C20_d_odd",
    "Thunder.C20_d_dissipative",
    "Thunder.C20_dm_odd",
    "Thunder.C20_dm_dissipative",
    "Thunder.C20_get"
   ],
   "note": "elastic coupling, damping and motor friction laws"
  },
  {
   "property": "C21",
   "status": "partial",
   "theorems": [
    "Thunder.C21_own_link_partial",
    "Thunder.C21_iff",
    "Thunder.C21_fails",
    "Thunder.C21_get"
   ],
   "note": "false of the code when a rigid joint precedes an elastic one: C21_fails is the counterexample, C21_own_link_partial covers the robots whose elastic joints come first, and C21_iff shows that no other robot has the property"
  },
  {
   "property": "C24",
   "status": "proved",
   "theorems": [
    "Thunder.C24_exact",
    "Thunder.C24_full",
    "Thunder.C60_regressors"
   ],
   "note": "reg_dl times the symbolic parameters reproduces dl up to the numeric part"
  },
  {
   "property": "C25",
   "status": "proved",
   "theorems": [
    "Thunder.C25_k",
    "Thunder.C25_d",
    "Thunder.C25_dm",
    "Thunder.C25_Mm",
    "Thunder.C60_regressors"
   ],
   "note": "same for reg_k, reg_d, reg_dm, reg_Mm"
  },
  {
   "property": "C26",
   "status": "proved",
   "theorems": [
    "Thunder.C26_Jdq",
    "Thunder.C26_JTw",
    "Thunder.C59_kinematic"
   ],
   "note": "kinematic regressors are the partial derivatives with respect to the symbolic kinematic parameters"
  },
  {
   "property": "C22",
   "status": "proved",
   "theorems": [
    "Thunder.C22_identity",
    "Thunder.C22_get"
   ],
   "note": "Same hypothesis on numeric angles as C02."
  },
  {
   "property": "C23",
   "status": "proved",
   "theorems": [
    "Thunder.C23_M",
    "Thunder.C23_C",
    "Thunder.C23_G",
    "Thunder.C23_split",
    "Thunder.C59_inertial"
   ],
   "note": "Same hypothesis on numeric angles as C02 for the three products; the split needs none."
  },
  {
   "property": "C27",
   "status": "proved",
   "theorems": [
    "Thunder.C27_reg",
    "Thunder.C27_dyn_reg",
    "Thunder.C27_reg_dyn",
    "Thunder.C27_zero_mass",
    "Thunder.C27_iff"
   ],
   "note": "real parameter vectors of full size; a division by zero gives the undetermined value"
  },
  {
   "property": "C28",
   "status": "proved",
   "theorems": [
    "Thunder.C28_reg",
    "Thunder.C28_dyn"
   ],
   "note": "for every vector, including NaN entries"
  },
  {
   "property": "C50",
   "status": "partial",
   "theorems": [
    "Thunder.C50_rpyRot_partial",
    "Thunder.C50_rpyRot_iff",
    "Thunder.C50_rpyRotW_iff",
    "Thunder.C50_rotation_iff",
    "Thunder.C50_transform_partial",
    "Thunder.C50_fails"
   ],
   "note": "false of the code: a rotation is returned exactly when sin(yaw) sin(roll) = 0; the iff theorems settle every angle triple and C50_fails is a witness"
  },
  {
   "property": "C51",
   "status": "proved",
   "theorems": [
    "Thunder.C51_additive",
    "Thunder.C51_comm",
    "Thunder.C51_assoc",
    "Thunder.C51_zero_mass"
   ],
   "note": ""
  },
  {
   "property": "C52",
   "status": "partial",
   "theorems": [
    "Thunder.C52_frame",
    "Thunder.C52_psd",
    "Thunder.C52_partial",
    "Thunder.C52_iff",
    "Thunder.C52_trace_iff",
    "Thunder.C52_fails"
   ],
   "note": "mass, centre of mass, conjugation, symmetry and semidefiniteness hold for all angles; trace and being a rotation only under the exact conditions of C52_trace_iff and C52_iff, with C52_fails as witness"
  },
  {
   "property": "C45",
   "status": "proved",
   "theorems": [
    "Thunder.C45_replace_all",
    "Thunder.C45_spec_unique",
    "Thunder.C45_empty_pattern"
   ],
   "note": "refinement of the find/replace loop to leftmost non-overlapping replacement; the empty pattern does nothing"
  },
  {
   "property": "C47",
   "status": "proved",
   "theorems": [
    "Thunder.C47_dir",
    "Thunder.C47_plain"
   ],
   "note": ""
  },
  {
   "property": "C48",
   "status": "partial",
   "theorems": [
    "Thunder.main_cases",
    "Thunder.C48_inverted",
    "Thunder.C48_partial",
    "Thunder.C48_fails"
   ],
   "note": "false of the code: main returns 1 on success and 0 on every handled failure; C48_inverted covers every run without exception, C48_fails is a witness"
  },
  {
   "property": "C49",
   "status": "proved",
   "theorems": [
    "Thunder.Threads.C49_values",
    "Thunder.Threads.C49_complete",
    "Thunder.Threads.C49_static_fails"
   ],
   "note": "assignments are atomic steps; every interleaving of any number of threads; C49_static_fails shows the storage class matters"
  },
  {
   "property": "C30",
   "status": "partial",
   "theorems": [
    "Thunder.Wrap.C30_partial",
    "Thunder.Wrap.C30_set_par_REG",
    "Thunder.Wrap.C30_set_par_DYN",
    "Thunder.Wrap.C30_set_par_REG_iff",
    "Thunder.Wrap.C30_load_par_REG",
    "Thunder.Wrap.C30_load_conf",
    "Thunder.Wrap.C30_other",
    "Thunder.Wrap.C30_fails",
    "Thunder.Wrap.C30_fails_load"
   ],
   "note": "Invariant over every history of public calls under explicit side conditions; the claim itself is false: set_par_REG with a wrong size on a fresh object puts NaN into par_DYN, and a load_conf that stops inside the dynamics section leaves par_REG stale. Exact conditions call by call, in every reachable state: set_par_DYN always; set_par_REG and a complete load_par_REG exactly when no link of numbers has mass zero; load_conf when every entry can be read; a load that stops in between leaves the other vector as it was; the remaining calls do not touch the two vectors."
  },
  {
   "property": "C31",
   "status": "partial",
   "theorems": [
    "Thunder.Wrap.C31_partial",
    "Thunder.Wrap.C31_iff",
    "Thunder.Wrap.C31_fails",
    "Thunder.Wrap.C31_fails_DYN"
   ],
   "note": "All setters in all reachable states; false for set_par_REG and set_par_DYN with update, which convert even when the size was rejected; C31_iff gives the exact condition under which they leave the object unchanged."
  },
  {
   "property": "C33",
   "status": "partial",
   "theorems": [
    "Thunder.Wrap.C33_partial",
    "Thunder.Wrap.C33_fails",
    "Thunder.Wrap.C33_load_conf",
    "Thunder.Wrap.C33_iff",
    "Thunder.Wrap.C33_others",
    "Thunder.Wrap.C33_any",
    "Thunder.Wrap.C33_access_iff"
   ],
   "note": "All histories in which every file given to load_conf (also one on which it fails) has the pattern used for generation; false for a file of another pattern on which load_conf fails after compacting. For arbitrary files: the length of each kinematic member after load_conf (C33_load_conf) and after any other call (C33_others), the exact condition under which the lengths still suffice (C33_iff), the possible lengths in any reachable state (C33_any), and exactly which calls make an access outside a vector (C33_access_iff)."
  },
  {
   "property": "C40",
   "status": "proved",
   "theorems": [
    "Thunder.Wrap.C40"
   ],
   "note": "For every pair of reachable states."
  },
  {
   "property": "C41",
   "status": "proved",
   "theorems": [
    "Thunder.Wrap.C41"
   ],
   "note": "For every pair of reachable states."
  },
  {
   "property": "C29",
   "status": "partial",
   "theorems": [
    "Thunder.C29_stale",
    "Thunder.C29_stale_REG",
    "Thunder.C29_fails",
    "Thunder.C29_fails_REG",
    "Thunder.C29_iff",
    "Thunder.C29_iff_REG",
    "Thunder.C29_partial",
    "Thunder.C29_partial_REG"
   ],
   "note": "false of the code: the call of update_inertial_* after the return is never reached; C29_fails holds for every robot with a joint. C29_iff: the vectors are consistent afterwards exactly when the other one was already the image of the vector given. The partial theorems cover the setter followed by an explicit update call."
  },
  {
   "property": "C32",
   "status": "partial",
   "theorems": [
    "Thunder.C32_config",
    "Thunder.C32_partial",
    "Thunder.C32_iff",
    "Thunder.C32_history",
    "Thunder.C32_fails",
    "Thunder.C32_fails_config",
    "Thunder.C32_fails_tail"
   ],
   "note": "C32_iff gives the exact condition on the state. Holds for every robot built from a configuration after every history of calls without a wrong-size set_arg (C32_config); false for the elastic variables when a configuration has an elastic joint but no ELASTIC_MODEL, and after set_arg stored a longer vector."
  },
  {
   "property": "C38",
   "status": "partial",
   "theorems": [
    "Thunder.C38_partial",
    "Thunder.C38_safe",
    "Thunder.C38_wellformed",
    "Thunder.C38_fails",
    "Thunder.C38_fails_types",
    "Thunder.C38_fails_offset",
    "Thunder.C38_fails_links",
    "Thunder.C38_fails_silent",
    "Thunder.C38_iff",
    "Thunder.C38_iff_file"
   ],
   "note": "No undefined behaviour for every tree meeting explicit size conditions (which every well-formed file meets); on well-formed files the object holds the contents of the file.  False in general: witnesses for an unreadable file, short joint types, a short offset, an extra link, and a file whose error leaves an incomplete object. C38_iff, C38_iff_file: for every tree a parser delivers the exact condition for undefined behaviour, stated on the tree (no number of joints; or too few types, flags outside their vector, or an offset or gravity with fewer than three components, the part of the file before being readable)."
  },
  {
   "property": "C39",
   "status": "proved",
   "theorems": [
    "Thunder.C39"
   ],
   "note": ""
  },
  {
   "property": "C42",
   "status": "partial",
   "theorems": [
    "Thunder.C42_fails",
    "Thunder.C42_partial"
   ],
   "note": "false of the code for every state: the saved file has no section inertial, so loading it sets par_REG to zero; the partial theorem covers files in the layout load_par_REG reads"
  },
  {
   "property": "C43",
   "status": "proved",
   "theorems": [
    "Thunder.C43"
   ],
   "note": ""
  },
  {
   "property": "C44",
   "status": "partial",
   "theorems": [
    "Thunder.C44_protect",
    "Thunder.C44_names",
    "Thunder.C44_add_partial",
    "Thunder.C44_iff",
    "Thunder.C44_fails"
   ],
   "note": "overwrite protection in full; names that CasADi does not accept are never added (C44_names); get after add_function for robots on which update_symb_parameters has not run; for robots returned by robot_from_file C44_iff gives the exact condition (in each argument the symbolic entries come first); false otherwise (C44_fails)"
  },
  {
   "property": "C53",
   "status": "proved",
   "theorems": [
    "Thunder.C53_unknown",
    "Thunder.C53_get",
    "Thunder.C53_history"
   ],
   "note": "no later call can tell that get happened (trace equality over every list of later calls)"
  },
  {
   "property": "C55",
   "status": "proved",
   "theorems": [
    "Thunder.Wrap.C55",
    "Thunder.Wrap.C55_fails_DH"
   ],
   "note": "All setters in all reachable states.  C55_fails_DH shows that the restriction to one column for set_par_DHtable is needed."
  },
  {
   "property": "C35",
   "status": "proved",
   "theorems": [
    "Thunder.C35",
    "Thunder.C35_name"
   ],
   "note": "for every tree described by Spec.Describes (any flags) with at least one joint and joint types R, P, R_SEA, P_SEA: robot_from_file returns, registers exactly Spec.library, every expression is covered by its declared inputs, and get returns a determined matrix. Every configuration has such a file (Ex.describes_fileOf). The name of the robot must consist of letters, digits and single underscores, begin with a letter and not end with an underscore; C35_name: exactly then robot_from_file succeeds (CasADi rejects other names)."
  },
  {
   "property": "C37",
   "status": "partial",
   "theorems": [
    "Thunder.C37_partial",
    "Thunder.C37_iff",
    "Thunder.C37_fails"
   ],
   "note": "true exactly when all inertial parameters are symbolic (C37_partial, C37_iff); for every configuration with a numeric inertial parameter get_par_DYN returns undetermined entries and set_par_DYN throws (C37_fails)"
  },
  {
   "property": "C34",
   "status": "partial",
   "theorems": [
    "Thunder.C34_partial",
    "Thunder.C34_partial_angles",
    "Thunder.C34_partial_values",
    "Thunder.C34_exact",
    "Thunder.C34_needs_exact",
    "Thunder.C34_iff",
    "Thunder.C34_fails"
   ],
   "note": "Two files with the same values and any two symbolic patterns give robots that no history of evaluations and changes of the variables of motion can tell apart (C34_partial), provided each angle that is symbolic in one pattern and numeric in the other is one on which the library functions with rounding of small values are exact; no such hypothesis when the angles are treated alike (C34_partial_angles). The same for robots and objects of generated classes in use, after any change of the variables and of the symbolic parameters (C34_partial_values, with unit numeric angles; C34_exact). The exact condition for all pairs of patterns of a file is that the library functions with rounding of small values are exact on every angle of the file (C34_iff). The full claim is false (C34_fails: quarter-turn twist). Parameter regressors are excluded: their number of columns is the number of symbolic parameters."
  },
  {
   "property": "C36",
   "status": "partial",
   "theorems": [
    "Thunder.C36_partial",
    "Thunder.C36_needs_aligned",
    "Thunder.C36_fails",
    "Thunder.C36_exact",
    "Thunder.C36_aligned",
    "Thunder.C36_loaded",
    "Thunder.C36_reachable",
    "Thunder.C36_iff",
    "Thunder.C36_prismatic"
   ],
   "note": "C36_partial: when the symbolic inertial, friction and actuator parameters come first in their vectors (in particular all or none symbolic; any pattern of kinematic and gravity parameters), then for every history of loads of the file and settings of the variables on both sides, every getter of the generated class returns what get returns on the generating robot. Otherwise false: C36_needs_aligned (agreement forces the condition for friction and actuator parameters, every configuration) and C36_fails (one revolute joint, one symbolic coordinate of the centre of mass). For every pattern: after a load the object is one for the mechanism whose symbolic inertial, friction and actuator parameters are taken from the front of the vectors of the file (C36_exact), equal to those of the file exactly when they come first (C36_aligned); robot and object always agree if and only if friction and actuator parameters come first and the inertial parameters so read give the same mass matrix, gravity terms and Jacobians of the centres of mass (C36_iff; numeric angles with cosines and sines on the unit circle), for prismatic arms already when the masses are right (C36_prismatic)."
  },
  {
   "property": "C46",
   "status": "proved",
   "theorems": [
    "Thunder.C46",
    "Thunder.C46_library",
    "Thunder.C46_texts",
    "Thunder.C46_example"
   ],
   "note": "For every well-formed configuration, every list of functions added through the user hook and every robot name: if robot_from_file succeeds, the instantiation of the template has one outcome, header and source contain exactly one getter per registered function (library plus user) with the same type, its size is that of the CasADi output, and the pointers passed are those of the arguments in the order of the inputs of the CasADi function; with Python bindings there is one binding per function. C46_library: the shipped hook, success proved. C46_texts: the texts for an arbitrary robot state. Hypotheses: argument names and descriptions of functions of the user have no line break and no '#'; functions of the user are not named like arguments and no function is an argument. C46_example: the example of userDefined.cpp yields a getter that uses a member the class does not have."
  },
  {
   "property": "C56",
   "status": "proved",
   "theorems": [
    "Thunder.C56_frames",
    "Thunder.C56_rigid",
    "Thunder.C56_ideal",
    "Thunder.C56_start",
    "Thunder.C56_reachable"
   ],
   "note": "End to end: robot_from_file on any well-formed file, then any history of get/set/load/save calls (no new functions), then get. The returned matrices are the frames built from the numbers in the file and the current values. C56_start and C56_reachable show that the hypothesis Running is met right after construction and for all values of variables and symbolic parameters. Numeric angles enter through the folded cosine and sine (C09); C56_ideal gives the exact frames when these are exact."
  },
  {
   "property": "C57",
   "status": "proved",
   "theorems": [
    "Thunder.C57_jacobians",
    "Thunder.C57_derivative",
    "Thunder.C57_com",
    "Thunder.C57_rates",
    "Thunder.C57_pinv"
   ],
   "note": "End to end like C56, under UnitNumeric (folded cosine and sine of the numeric angles on the unit circle, as in C02). C57_derivative says that the derivatives in jacobianOf exist."
  },
  {
   "property": "C58",
   "status": "proved",
   "theorems": [
    "Thunder.C58_matrices",
    "Thunder.C58_energy",
    "Thunder.C58_rates",
    "Thunder.C58_lagrange",
    "Thunder.C58_power"
   ],
   "note": "End to end like C56, under UnitNumeric. Mass matrix, Coriolis matrix and gravity vector are defined in the spec from the kinetic and potential energy of the mechanism only; C58_energy gives existence of the derivatives used."
  },
  {
   "property": "C59",
   "status": "proved",
   "theorems": [
    "Thunder.C59_inertial",
    "Thunder.C59_kinematic"
   ],
   "note": "End to end like C56, under UnitNumeric, for all inertial parameters and all symbolic kinematic parameters."
  },
  {
   "property": "C60",
   "status": "proved",
   "theorems": [
    "Thunder.C60_link",
    "Thunder.C60_elastic",
    "Thunder.C60_regressors"
   ],
   "note": "End to end like C56. The springs and dampers couple motor e to link e, as the code does (C21)."
  },
  {
   "property": "C61",
   "status": "proved",
   "theorems": [
    "Thunder.C61_class",
    "Thunder.C61_reachable",
    "Thunder.C61_loaded",
    "Thunder.C56_frames",
    "Thunder.C57_jacobians",
    "Thunder.C58_matrices",
    "Thunder.C58_lagrange",
    "Thunder.C59_inertial",
    "Thunder.C60_link",
    "Thunder.C60_elastic"
   ],
   "note": "The theorems C56-C60 are stated for a Source, which is a robot in use or an object of the generated class; C61_class identifies the answers of the two. No alignment condition is needed for the answers (C36 fails only because load_conf stores all parameters where the symbolic ones are expected); C61_loaded has it for states reached by load_conf alone."
  },
  {
   "property": "C62",
   "status": "proved",
   "theorems": [
    "Thunder.C62",
    "Thunder.C62_frame",
    "Thunder.C62_reg",
    "Thunder.C62_use",
    "Thunder.Ex.C62_silent"
   ],
   "note": "The command is modelled on a disk (paths are texts, rights do not change while it runs). C62 gives the single outcome and all files, C62_frame what can change in any run, C62_use and C62_reg what the written documents are good for (C62_use assumes that yaml-cpp reads this document back as it was emitted). Ex.C62_silent: the command returns 1 although the configuration could not be written, because the results of save_conf and save_par_REG are ignored."
  },
  {
   "property": "C63",
   "status": "proved",
   "theorems": [
    "Thunder.C63_determined",
    "Thunder.C63_posdef",
    "Thunder.C63_forward",
    "Thunder.C63_singular",
    "Thunder.C63_passive"
   ],
   "note": "For any Source (a robot in use or an object of the generated class). The condition on own inertia is sufficient, and C63_singular shows that it cannot be left out for the last link."
  },
  {
   "property": "C64",
   "status": "proved",
   "theorems": [
    "Thunder.C64_rigid",
    "Thunder.C64_elastic",
    "Thunder.C64_rigid_loses",
    "Thunder.C64_elastic_loses"
   ],
   "note": "The equations of motion are made of the returned values; motor e acts on link e, as in the code (which is not the elastic joint when the elastic joints are not the first ones, C21)."
  },
  {
   "property": "C65",
   "status": "partial",
   "theorems": [
    "Thunder.C65_sound",
    "Thunder.C65_angles",
    "Thunder.C65_built_partial",
    "Thunder.C65_forward",
    "Thunder.C65_loses",
    "Thunder.C65_springs_partial",
    "Thunder.C65_wrist",
    "Thunder.C65_wrist_fails",
    "Thunder.C65_old"
   ],
   "note": "Proved for the sixteen files in the current layout, except two parts that are false of the code: in frankaWrist the elastic joint is the eighth one and k is computed from the first (C65_wrist, C65_wrist_fails; cf. C21), and the files R15 and R30 are in an old layout, with which robot_from_file throws (C65_old). The trees are transcribed from the files; numbers are the decimals written there. For the positive definiteness of the three robots mounted at other angles than right ones C65 assumes that the computed cosines and sines lie on the unit circle; C67_fleet does without this assumption."
  },
  {
   "property": "C66",
   "status": "partial",
   "theorems": [
    "Thunder.GenYaml.C66_files_partial",
    "Thunder.GenYaml.C66_iff",
    "Thunder.GenYaml.C66_loaded_partial",
    "Thunder.GenYaml.C66_friction_fails",
    "Thunder.GenYaml.C66_overrun",
    "Thunder.GenYaml.C66_short",
    "Thunder.GenYaml.C66_all_or_nothing",
    "Thunder.GenYaml.C66_described_partial",
    "Thunder.GenYaml.C66_fleet"
   ],
   "note": "Proved for files that declare no friction, with distinct link names and the number of joints of the file; all-or-nothing for every tree. False of the code otherwise: with friction declared it reads Dl from the link instead of its friction node, returns 0 and writes nothing (C66_friction_fails; C66_fleet says this of the robot files of the repository that declare friction); links of the same name are merged (the equivalences in C66_files_partial); more links than joints is an access outside the vector (C66_overrun), fewer give additional links without mass (C66_short). The function is compiled but its call in thunder_main.cpp:200 is commented out."
  },
  {
   "property": "C67",
   "status": "proved",
   "theorems": [
    "Thunder.C67_exact",
    "Thunder.C67_gap",
    "Thunder.C67_frames",
    "Thunder.C67_jacobians",
    "Thunder.C67_dynamics",
    "Thunder.C67_structure",
    "Thunder.C67_power",
    "Thunder.C67_posdef",
    "Thunder.C67_fleet"
   ],
   "note": "For every Source (robot used through its interface, or object of the generated class). The mechanism with exact angles is Spec.exact c, whose frames C67_exact identifies with the Denavit-Hartenberg frames of the numbers in the file. The error of the cosines and sines is the hypothesis CloseNumeric; rounding of the other operations is not modelled."
  },
  {
   "property": "C68",
   "status": "partial",
   "theorems": [
    "Thunder.Urdf.C68_files_partial",
    "Thunder.Urdf.C68_iff",
    "Thunder.Urdf.C68_determined",
    "Thunder.Urdf.C68_regressor_partial",
    "Thunder.Urdf.C68_shipped",
    "Thunder.Urdf.C68_all_or_ub",
    "Thunder.Urdf.C68_overrun",
    "Thunder.Urdf.C68_skips",
    "Thunder.Urdf.C68_angles_fails",
    "Thunder.Urdf.C68_not_loaded",
    "Thunder.Urdf.C68_noise_fails"
   ],
   "note": "Proved for files whose first eight entries are complete and whose angles satisfy sin yaw * sin roll = 0, with the file of the repository as an instance (C68_shipped). False of the code otherwise: other angles give a wrong tensor (C68_angles_fails, cause as in C50); a file with fewer than eight bodies or one that cannot be read leads to a read outside the vector (C68_overrun; C68_all_or_ub says that nothing else can happen); an entry without angles is dropped and the following bodies go to other links (C68_skips); the links are not in a section dynamics, so load_par_REG and load_conf ignore the files (C68_not_loaded); noise of any size can give a tensor that is not positive semidefinite (C68_noise_fails). The branches of use_gripper and copy_flag, constants with value false, are left out."
  },
  {
   "property": "C69",
   "status": "partial",
   "theorems": [
    "Thunder.C69_partial",
    "Thunder.C69_functions",
    "Thunder.C69_iff",
    "Thunder.C69_headings",
    "Thunder.C69_nofile",
    "Thunder.C69_fails",
    "Thunder.C69_blind",
    "Thunder.C69_sea"
   ],
   "note": "Proved for well-formed files with known joint types: the program prints exactly when the file has an elastic model or no joint of an elastic type (C69_iff), under each heading the answer of get at the state it sets (C69_functions), hence the values of the mechanism and a zero difference (C69_partial). False of the code: without elastic model but with elastic joints set_x throws; par_DHtable is printed as a single zero, as are functions the robot does not have; par_DYN has unwritten entries unless all inertial parameters are symbolic (C69_fails), in the file named in the program all of them (C69_sea); a missing file is undefined behaviour (C69_nofile). The last check does not depend on M and C (C69_blind)."
  },
  {
   "property": "C70",
   "status": "partial",
   "theorems": [
    "Thunder.C70_partial",
    "Thunder.C70_over",
    "Thunder.C70_iff",
    "Thunder.C70_headings",
    "Thunder.C70_nofile",
    "Thunder.C70_RRR",
    "Thunder.C70_fails",
    "Thunder.C70_silent"
   ],
   "note": "Proved for well-formed files of the same form with known joint types: the program prints, without undefined behaviour, the parameters of the file it reads and the values of the mechanism with the numeric parameters of the class and the symbolic ones of the file (C70_over); if the numeric parameters agree and symbolic ones of links and actuators come first these are the values of the file read, and the difference is zero (C70_partial; C70_RRR for the class and file named in the program). C70_iff: exactly when the difference is zero. C70_nofile: without the file it prints for symbolic parameters zero. False of the code: with the generating file itself the difference is not zero when a coordinate of the centre of mass is symbolic and the mass is not (C70_fails); with a file of other numeric parameters it is zero although the torques are not those of the file (C70_silent). Missing: the unconditional statement."
  },
  {
   "property": "C71",
   "status": "proved",
   "theorems": [
    "Thunder.C71_over",
    "Thunder.C71_loaded",
    "Thunder.C71_numeric",
    "Thunder.C71_fails"
   ],
   "note": "C71_over: after loading a file with the same joints, orders and selection of symbolic parameters, in any order with settings of variables, the object is one for the mechanism with the numeric parameters of the generating file and the symbolic ones of the file loaded. C71_loaded: if the numeric parameters agree and the symbolic ones come first, it is one for the file loaded. C71_numeric: with nothing symbolic, loading has no effect on the getters. C71_fails: the condition on numeric parameters is needed (a lift generated for the earth and loaded with the file for the moon)."
  },
  {
   "property": "C72",
   "status": "partial",
   "theorems": [
    "Thunder.C72_partial",
    "Thunder.C72_iff",
    "Thunder.C72_robot",
    "Thunder.C72_robots",
    "Thunder.C72_shipped",
    "Thunder.C72_class",
    "Thunder.C72_fails",
    "Thunder.C72_coarse",
    "Thunder.C72_class_fails",
    "Thunder.C72_R15",
    "Thunder.C72_nofile"
   ],
   "note": "Proved for well-formed files and any readings of the clock: the calls compute the matrices of the mechanism and the programs finish (C72_robot, C72_robots, C72_class; C72_shipped for the files of the repository); C72_iff and C72_class say exactly when the time printed is the shortest duration. False of the code: when every call takes a second or more, 999999.999 us is printed (C72_fails); with the class the same number is printed when the calls are too fast for the clock (C72_class_fails); a missing file is undefined behaviour (C72_nofile); with the list entry that is commented out the program would throw (C72_R15)."
  },
  {
   "property": "C73",
   "status": "partial",
   "theorems": [
    "Thunder.C73_history",
    "Thunder.C73_entries",
    "Thunder.C73_front",
    "Thunder.C73_ignored",
    "Thunder.C73_new",
    "Thunder.C73_bodies",
    "Thunder.C73_adaptive"
   ],
   "note": "C73_history: after loading, for every history of loads and settings of variables and parameters, the object is one for the mechanism with the symbolic parameters set last, the numbers being taken in order (C73_entries). C73_adaptive: with all inertial parameters symbolic, M, C, G are those of the bodies given and Yr times the linear parameters is the torque; C73_bodies: all numbers without zero masses are such parameters. False of the code in part: the setters of links and actuators do not accept one number per symbolic entry (C73_ignored) and take symbolic parameters from the front of a full vector (C73_front: right exactly when they come first); on a new object the call of the README is ignored (C73_new)."
  },
  {
   "property": "C74",
   "status": "proved",
   "theorems": [
    "Thunder.C74_rate",
    "Thunder.C74_loses",
    "Thunder.C74_tracks",
    "Thunder.C74_follows",
    "Thunder.C74_known"
   ],
   "note": "The closed loop of the mechanism of the file with any bodies and the Slotine-Li controller made of the returned Yr and dl. C74_rate: the Lyapunov function loses exactly s^T K s; C74_loses, C74_tracks, C74_follows: bounded error of the estimate, s -> 0 (for bounded accelerations), q -> the desired motion; C74_known: the same with known parameters. A closed loop with a wrong estimate is given as an example. Values are exact reals and time is continuous; that a solution exists for all times is a hypothesis."
  },
  {
   "property": "C75",
   "status": "proved",
   "theorems": [
    "Thunder.C75",
    "Thunder.C75_cmake",
    "Thunder.C75_library",
    "Thunder.Ex.C75_unguarded"
   ],
   "note": "Constants (read line by line by a small specification, shown to be a function of the text), class line, includes, Python module and build file for every configuration, user hook and robot name; the include guard holds exactly when the name does not contain THUNDERROBOT (C75_unguarded: a name for which the header has no guard)."
  },
  {
   "property": "C76",
   "status": "proved",
   "theorems": [
    "Thunder.C76",
    "Thunder.C76_exact",
    "Thunder.C76_symm",
    "Thunder.C76_posdef",
    "Thunder.C76_bounded",
    "Thunder.C76_double"
   ],
   "note": "Evaluation operation by operation on an arbitrary machine with relative error at most u per operation for results between u and 1/u, absolute error u^2 for smaller and any outcome for larger ones; the type double with underflow and overflow is one. The constant K is uniform in states, symbolic parameters, machines and for robot and generated class. Simplifications: the order of the operations is that of the model, library functions are one operation, the matrix inverse of J_ee_pinv is assumed to be backward stable."
  },
  {
   "property": "C77",
   "status": "proved",
   "theorems": [
    "Thunder.C77"
   ],
   "note": "All calls of Robot including the failing ones, any functions of the user, compute on or off."
  },
  {
   "property": "C78",
   "status": "partial",
   "theorems": [
    "Thunder.FrameOffset.C78_new_partial",
    "Thunder.FrameOffset.C78_last",
    "Thunder.FrameOffset.C78_hat",
    "Thunder.FrameOffset.C78_fails"
   ],
   "note": "False of the code: the setters do not check the size of the vector (C78_fails). C78_last gives the exact condition after any calls: the last vector given has at least three numbers. Constructors (C78_new_partial) and hat (C78_hat) are as claimed."
  },
  {
   "property": "C79",
   "status": "proved",
   "theorems": [
    "Thunder.C79_linear",
    "Thunder.C79_follows",
    "Thunder.C79_tends",
    "Thunder.C79_rate",
    "Thunder.C79_rests"
   ],
   "note": "Closed loops with the values returned by the robot or the generated class at each time. No bound on motions or accelerations is assumed: boundedness follows from the energy and the continuity of the returned matrices. As in C58, numeric angles have cosines and sines on the unit circle."
  },
  {
   "property": "C80",
   "status": "proved",
   "theorems": [
    "Thunder.C80_terms",
    "Thunder.C80_forward",
    "Thunder.C80_torque",
    "Thunder.C80_follows"
   ],
   "note": "The motion is assumed to remain within the bound the constants depend on; the solution of the linear system enters through its residual. Machine as in C76."
  },
  {
   "property": "C81",
   "status": "proved",
   "theorems": [
    "Thunder.C81_inputs",
    "Thunder.C81_reg",
    "Thunder.C81_dyn",
    "Thunder.C81_robot",
    "Thunder.C81_class",
    "Thunder.C81_adaptive"
   ],
   "note": "Machine as in C76; the constants depend on the bound and the least mass."
  },
  {
   "property": "C82",
   "status": "proved",
   "theorems": [
    "Thunder.C82_bounded",
    "Thunder.C82_terms",
    "Thunder.C82_torque",
    "Thunder.C82_follows"
   ],
   "note": "The motion is assumed to remain within the bound the constants depend on. Machine as in C76."
  },
  {
   "property": "C83",
   "status": "proved",
   "theorems": [
    "Thunder.C83_step",
    "Thunder.C83_euler"
   ],
   "note": "The motion is assumed to remain within the bound and to have Lipschitz accelerations; the constants depend on the bound and the time. Machine as in C76."
  },
  {
   "property": "C84",
   "status": "proved",
   "theorems": [
    "Thunder.C84_torque",
    "Thunder.C84_follows"
   ],
   "note": "For every motion of the mechanism under the held torques; existence of the motion is not claimed. No bound of the motion is assumed; d0 depends on the bounds of the reference and of the initial errors. Machine as in C76."
  },
  {
   "property": "C85",
   "status": "proved",
   "theorems": [
    "Thunder.C85_kinematics",
    "Thunder.C85_dynamics",
    "Thunder.C85_tool"
   ],
   "note": "Numeric angles have a cosine and sine on the unit circle (UnitNumeric), as in C57."
  },
  {
   "property": "C86",
   "status": "proved",
   "theorems": [
    "Thunder.C86_frames",
    "Thunder.C86_jacobians",
    "Thunder.C86_columns",
    "Thunder.C86_regressor",
    "Thunder.C86_loads"
   ],
   "note": "Jacobians and regressors: numeric angles have a cosine and sine on the unit circle (UnitNumeric), as in C57."
  },
  {
   "property": "C87",
   "status": "proved",
   "theorems": [
    "Thunder.C87"
   ],
   "note": "Numeric angles have a cosine and sine on the unit circle (UnitNumeric), as in C58."
  }
 ]
}