/-!
# The template files of the generated class

The text of `src/thunder/thunder_robot_template/thunder_robot.h`, `thunder_robot.cpp` and `CMakeLists.txt` and of the bindings template in
`src/utils.cpp`, line by line (lines separated by a newline character; the last entry is what follows the last newline).
-/

namespace Thunder.Text

/-- `src/thunder/thunder_robot_template/thunder_robot.h`, whole file. -/
def headerLines : List String := [
  "#ifndef THUNDERROBOT_H",
  "#define THUNDERROBOT_H",
  "",
  "#include <iostream>",
  "#include <string>",
  "#include <cmath>",
  "#include <eigen3/Eigen/Dense>",
  "#include <yaml-cpp/yaml.h>",
  "#include <fstream>",
  "",
  "",
  "/* Class thunder_robot ",
  "Useful functions for adaptive control with Slotine-Li regressor",
  "Usable only for generated code from casadi library! */",
  "class thunder_robot{",
  "",
  "\tprivate:",
  "\t\t// standard number of parameters",
  "\t\tconst int STD_PAR_LINK = 10;",
  "\t\t/* Joints' variables */",
  "\t\tEigen::VectorXd q, dq, ddq, d3q, d4q, dqr, ddqr, par_DYN, par_REG, par_Dl;",
  "\t\tEigen::VectorXd x, dx, ddx, ddxr, par_K, par_D, par_Dm, par_Mm;",
  "\t\tEigen::VectorXd w;",
  "\t\tEigen::VectorXd par_DHtable, par_gravity, par_world2L0, par_Ln2EE;",
  "\t\tstd::vector<int> DHtable_symb, gravity_symb, world2L0_symb, Ln2EE_symb;",
  "",
  "\t\tvoid update_inertial_DYN();",
  "\t\tvoid update_inertial_REG();",
  "",
  "\t\tstruct LinkProp {",
  "\t\t\tdouble mass;",
  "\t\t\tstd::vector<double> parI = std::vector<double>(6); // Inertia in the order xx, xy, xz, yy, yz, zz",
  "\t\t\tstd::vector<double> xyz = std::vector<double>(3); // Origin xyz as std::vector",
  "\t\t\tstd::vector<double> rpy = std::vector<double>(3);",
  "\t\t\tstd::vector<double> Dl = std::vector<double>(1);",
  "\t\t\tstd::string name;",
  "\t\t};",
  "",
  "\t\tstruct urdf2dh_T{",
  "\t\t\tstd::vector<double> xyz;",
  "\t\t\tstd::vector<double> rpy;",
  "\t\t};",
  "",
  "\t\tvoid fillInertialYaml(int num_joints, YAML::Emitter &emitter_, std::vector<LinkProp> &links_prop_, std::vector<std::string> keys_);",
  "\t\t// void transformBodyInertial(std::vector<double> d_i, std::vector<double> rpy_i, const LinkProp body_urdf, LinkProp &body);",
  "\t\t// void mergeBodyInertial(const LinkProp body1, const LinkProp body2, LinkProp &newBody);",
  "",
  "\t\tEigen::Matrix3d rpyRot(const std::vector<double> rpy);",
  "\t\tEigen::Matrix3d createI(const std::vector<double> parI);",
  "\t\tEigen::Matrix3d hat(const Eigen::Vector3d v);",
  "\t\t",
  "\tpublic:",
  "\t\tconst std::string robotName = \"/*#-ROBOT_NAME-#*/\";",
  "\t\tconst int n_joints = /*#-n_joints-#*/;",
  "\t\tconst bool ELASTIC = /*#-ELASTIC-#*/;",
  "\t\tconst int numElasticJoints = /*#-numElasticJoints-#*/;",
  "\t\tconst int K_order = /*#-K_order-#*/;",
  "\t\tconst int D_order = /*#-D_order-#*/;",
  "\t\tconst int Dl_order = /*#-Dl_order-#*/;",
  "\t\tconst int Dm_order = /*#-Dm_order-#*/;",
  "\t\tconst int numParDYN = STD_PAR_LINK*n_joints;",
  "\t\tconst int numParREG = STD_PAR_LINK*n_joints;",
  "\t\t// const int numParELA = /*#-numParELA-#*/;",
  "\t\tconst int isElasticJoint[/*#-n_joints-#*/] = /*#-isElasticJoint-#*/;",
  "",
  "\t\t/* Empty constructor, initialization inside */",
  "\t\tthunder_robot();",
  "\t\t/* Constructor to init variables*/",
  "\t\t// thunder_robot(const int);",
  "\t\t/* Destructor*/",
  "\t\t~thunder_robot() = default;",
  "\t\t",
  "\t\t/* Resize variables */",
  "\t\tvoid resizeVariables();",
  "\t\t/* Init variables from number of joints*/",
  "\t\t// void init(const int);",
  "\t\t/* Set q, dq, dqr, ddqr, to compute Regressor and update state*/",
  "\t\tvoid setArguments(const Eigen::VectorXd& q_, const Eigen::VectorXd& dq_, const Eigen::VectorXd& dqr_, const Eigen::VectorXd& ddqr_);",
  "\t\tvoid set_q(const Eigen::VectorXd& q_);",
  "\t\tvoid set_dq(const Eigen::VectorXd& dq_);",
  "\t\tvoid set_ddq(const Eigen::VectorXd& ddq_);",
  "\t\tvoid set_d3q(const Eigen::VectorXd& d3q_);",
  "\t\tvoid set_d4q(const Eigen::VectorXd& d4q_);",
  "\t\tvoid set_dqr(const Eigen::VectorXd& dqr_);",
  "\t\tvoid set_ddqr(const Eigen::VectorXd& ddqr_);",
  "\t\tvoid set_x(const Eigen::VectorXd& x_);",
  "\t\tvoid set_dx(const Eigen::VectorXd& dx_);",
  "\t\tvoid set_ddx(const Eigen::VectorXd& ddx_);",
  "\t\tvoid set_ddxr(const Eigen::VectorXd& ddxr_);",
  "\t\tvoid set_w(const Eigen::VectorXd& w_);",
  "\t\tvoid set_par_REG(const Eigen::VectorXd& par_, bool update_DYN = true);",
  "\t\tvoid set_par_DYN(const Eigen::VectorXd& par_, bool update_REG = true);",
  "\t\tvoid set_par_K(const Eigen::VectorXd& par_);",
  "\t\tvoid set_par_D(const Eigen::VectorXd& par_);",
  "\t\tvoid set_par_Dm(const Eigen::VectorXd& par_);",
  "\t\tvoid set_par_Mm(const Eigen::VectorXd& par_);",
  "\t\tvoid set_par_Dl(const Eigen::VectorXd& par_);",
  "\t\tvoid set_par_DHtable(const Eigen::MatrixXd& par_);",
  "\t\tvoid set_par_gravity(const Eigen::VectorXd& par_);",
  "\t\tvoid set_par_world2L0(const Eigen::VectorXd& par_);",
  "\t\tvoid set_par_Ln2EE(const Eigen::VectorXd& par_);",
  "\t\t// void set_par_ELA(const Eigen::VectorXd& par_);",
  "\t\tEigen::VectorXd get_par_REG();",
  "\t\tEigen::VectorXd get_par_DYN();",
  "\t\tEigen::VectorXd get_par_K();",
  "\t\tEigen::VectorXd get_par_D();",
  "\t\tEigen::VectorXd get_par_Dm();",
  "\t\tEigen::VectorXd get_par_Mm();",
  "\t\tEigen::VectorXd get_par_Dl();",
  "\t\tEigen::MatrixXd get_par_DHtable();",
  "\t\tEigen::VectorXd get_par_gravity();",
  "\t\tEigen::VectorXd get_par_world2L0();",
  "\t\tEigen::VectorXd get_par_Ln2EE();",
  "\t\t// Eigen::VectorXd get_par_ELA();",
  "",
  "\t\tEigen::VectorXd load_par_REG(std::string, bool update_DYN = true);",
  "\t\tvoid save_par_REG(std::string);",
  "\t\tvoid load_conf(std::string, bool update_REG = true);",
  "\t\tvoid save_par_DYN(std::string);",
  "\t\tint save_par(std::string par_file);",
  "\t\t// void load_par_DYN(std::string);",
  "\t\t// void save_par_DYN(std::string);",
  "\t\t// void load_par_elastic(std::string);",
  "\t\t// void load_par_ELA(std::string);",
  "\t\t// void save_par_ELA(std::string);",
  "",
  "\t\tint get_numJoints();",
  "\t\t// int get_numParLink();",
  "\t\tint get_numParDYN();",
  "\t\tint get_numParREG();",
  "\t\t// int get_numParELA();",
  "",
  "\t\t// ----- generated functions ----- //",
  "\t\t/*#-FUNCTIONS_H-#*/",
  "};",
  "",
  "#endif"]

/-- `src/thunder/thunder_robot_template/thunder_robot.cpp`, whole file. -/
def sourceLines : List String := [
  "#include \"thunder_robot.h\"",
  "#include \"robot_gen.h\"",
  "",
  "",
  "/*OPTIONAL PYBIND11 INCLUDE POINT*/",
  "",
  "",
  "thunder_robot::thunder_robot(){",
  "\tresizeVariables();",
  "}",
  "",
  "void thunder_robot::resizeVariables(){",
  "\tq = Eigen::VectorXd::Zero(n_joints);",
  "\tdq = Eigen::VectorXd::Zero(n_joints);",
  "\tddq = Eigen::VectorXd::Zero(n_joints);",
  "\td3q = Eigen::VectorXd::Zero(n_joints);",
  "\td4q = Eigen::VectorXd::Zero(n_joints);",
  "\tdqr = Eigen::VectorXd::Zero(n_joints);",
  "\tddqr = Eigen::VectorXd::Zero(n_joints);",
  "\tx = Eigen::VectorXd::Zero(numElasticJoints);",
  "\tdx = Eigen::VectorXd::Zero(numElasticJoints);",
  "\tddx = Eigen::VectorXd::Zero(numElasticJoints);",
  "\tddxr = Eigen::VectorXd::Zero(numElasticJoints);",
  "\tw = Eigen::VectorXd::Zero(6);",
  "\tpar_REG = Eigen::VectorXd::Zero(STD_PAR_LINK*n_joints);",
  "\tpar_DYN = Eigen::VectorXd::Zero(STD_PAR_LINK*n_joints);",
  "\tpar_Dl = Eigen::VectorXd::Zero(Dl_order*n_joints);",
  "\tpar_K = Eigen::VectorXd::Zero(K_order*numElasticJoints);",
  "\tpar_D = Eigen::VectorXd::Zero(D_order*numElasticJoints);",
  "\tpar_Dm = Eigen::VectorXd::Zero(Dm_order*numElasticJoints);",
  "\tpar_Mm = Eigen::VectorXd::Zero(numElasticJoints);",
  "\tpar_DHtable = Eigen::VectorXd::Zero(n_joints*4);",
  "\tpar_world2L0 = Eigen::VectorXd::Zero(6);",
  "\tpar_Ln2EE = Eigen::VectorXd::Zero(6);",
  "\tpar_gravity = Eigen::VectorXd::Zero(3);",
  "\tDHtable_symb.resize(n_joints*4);",
  "\tfor (int i=0; i<n_joints*4; i++) DHtable_symb[i] = 0;",
  "\tgravity_symb.resize(3);",
  "\tfor (int i=0; i<3; i++) gravity_symb[i] = 0;",
  "\tworld2L0_symb.resize(6);",
  "\tLn2EE_symb.resize(6);",
  "\tfor (int i=0; i<6; i++){",
  "\t\tworld2L0_symb[i] = 0;",
  "\t\tLn2EE_symb[i] = 0;",
  "\t}",
  "}",
  "",
  "int thunder_robot::get_numJoints() {return n_joints;};",
  "// int thunder_robot::get_numParLink() {return n_joints;};",
  "int thunder_robot::get_numParDYN() {return STD_PAR_LINK*n_joints;};",
  "int thunder_robot::get_numParREG() {return STD_PAR_LINK*n_joints;};",
  "// int thunder_robot::get_numParELA() {return numParELA;};",
  "",
  "void thunder_robot::setArguments(const Eigen::VectorXd& q_, const Eigen::VectorXd& dq_, const Eigen::VectorXd& dqr_, const Eigen::VectorXd& ddqr_){",
  "\tif(q_.size() == n_joints && dq_.size()== n_joints && dqr_.size()==n_joints && ddqr_.size()==n_joints){",
  "\t\tq = q_;",
  "\t\tdq = dq_;",
  "\t\tdqr = dqr_;",
  "\t\tddqr = ddqr_;",
  "\t} else{",
  "\t\tstd::cout<<\"in setArguments: invalid dimensions of arguments\\n\";",
  "\t}",
  "}",
  "",
  "void thunder_robot::set_q(const Eigen::VectorXd& q_){",
  "\tif(q_.size() == n_joints){",
  "\t\tq = q_;",
  "\t} else{",
  "\t\tstd::cout<<\"in set_q: invalid dimensions of arguments\\n\";",
  "\t}",
  "}",
  "",
  "void thunder_robot::set_dq(const Eigen::VectorXd& dq_){",
  "\tif(dq_.size() == n_joints){",
  "\t\tdq = dq_;",
  "\t} else{",
  "\t\tstd::cout<<\"in set_dq: invalid dimensions of arguments\\n\";",
  "\t}",
  "}",
  "",
  "void thunder_robot::set_ddq(const Eigen::VectorXd& ddq_){",
  "\tif(ddq_.size() == n_joints){",
  "\t\tddq = ddq_;",
  "\t} else{",
  "\t\tstd::cout<<\"in set_ddq: invalid dimensions of arguments\\n\";",
  "\t}",
  "}",
  "",
  "void thunder_robot::set_d3q(const Eigen::VectorXd& d3q_){",
  "\tif(d3q_.size() == n_joints){",
  "\t\td3q = d3q_;",
  "\t} else{",
  "\t\tstd::cout<<\"in set_d3q: invalid dimensions of arguments\\n\";",
  "\t}",
  "}",
  "",
  "void thunder_robot::set_d4q(const Eigen::VectorXd& d4q_){",
  "\tif(d4q_.size() == n_joints){",
  "\t\td4q = d4q_;",
  "\t} else{",
  "\t\tstd::cout<<\"in set_d4q: invalid dimensions of arguments\\n\";",
  "\t}",
  "}",
  "",
  "void thunder_robot::set_dqr(const Eigen::VectorXd& dqr_){",
  "\tif(dqr_.size() == n_joints){",
  "\t\tdqr = dqr_;",
  "\t} else{",
  "\t\tstd::cout<<\"in set_dqr: invalid dimensions of arguments\\n\";",
  "\t}",
  "}",
  "",
  "void thunder_robot::set_ddqr(const Eigen::VectorXd& ddqr_){",
  "\tif(ddqr_.size() == n_joints){",
  "\t\tddqr = ddqr_;",
  "\t} else{",
  "\t\tstd::cout<<\"in set_ddqr: invalid dimensions of arguments\\n\";",
  "\t}",
  "}",
  "",
  "void thunder_robot::set_x(const Eigen::VectorXd& x_){",
  "\tif(x_.size() == numElasticJoints){",
  "\t\tx = x_;",
  "\t} else{",
  "\t\tstd::cout<<\"in set_x: invalid dimensions of arguments\\n\";",
  "\t}",
  "}",
  "",
  "void thunder_robot::set_dx(const Eigen::VectorXd& dx_){",
  "\tif(dx_.size() == numElasticJoints){",
  "\t\tdx = dx_;",
  "\t} else{",
  "\t\tstd::cout<<\"in set_dx: invalid dimensions of arguments\\n\";",
  "\t}",
  "}",
  "",
  "void thunder_robot::set_ddx(const Eigen::VectorXd& ddx_){",
  "\tif(ddx_.size() == numElasticJoints){",
  "\t\tddx = ddx_;",
  "\t} else{",
  "\t\tstd::cout<<\"in set_dx: invalid dimensions of arguments\\n\";",
  "\t}",
  "}",
  "",
  "void thunder_robot::set_ddxr(const Eigen::VectorXd& ddxr_){",
  "\tif(ddxr_.size() == numElasticJoints){",
  "\t\tddxr = ddxr_;",
  "\t} else{",
  "\t\tstd::cout<<\"in set_ddxr: invalid dimensions of arguments\\n\";",
  "\t}",
  "}",
  "",
  "void thunder_robot::set_w(const Eigen::VectorXd& w_){",
  "\tif(w_.size() == 6){",
  "\t\tw = w_;",
  "\t} else{",
  "\t\tstd::cout<<\"in set_w: invalid dimensions of arguments\\n\";",
  "\t}",
  "}",
  "",
  "void thunder_robot::update_inertial_DYN(){",
  "\tfor (int i=0; i<n_joints; i++){",
  "\t\tEigen::VectorXd p_reg = par_REG.segment(STD_PAR_LINK*i, STD_PAR_LINK);",
  "\t\tdouble mass = p_reg(0);",
  "\t\tEigen::Vector3d CoM = {p_reg(1)/mass, p_reg(2)/mass, p_reg(3)/mass};",
  "\t\tEigen::Matrix3d I_tmp = mass * hat(CoM) * hat(CoM).transpose();",
  "\t\tEigen::Matrix<double, 6, 1> I_tmp_v;",
  "\t\tI_tmp_v << I_tmp(0,0), I_tmp(0,1), I_tmp(0,2), I_tmp(1,1), I_tmp(1,2), I_tmp(2,2);",
  "\t\tEigen::Matrix<double, 6, 1> I;",
  "\t\tI << p_reg(4), p_reg(5), p_reg(6), p_reg(7), p_reg(8), p_reg(9);",
  "\t\tpar_DYN.segment(STD_PAR_LINK*i, STD_PAR_LINK) << mass, CoM, I-I_tmp_v;",
  "\t}",
  "}",
  "",
  "void thunder_robot::update_inertial_REG(){",
  "\tfor (int i=0; i<n_joints; i++){",
  "\t\tEigen::VectorXd p_dyn = par_DYN.segment(STD_PAR_LINK*i, STD_PAR_LINK);",
  "\t\tdouble mass = p_dyn(0);",
  "\t\tEigen::Vector3d CoM = {p_dyn(1), p_dyn(2), p_dyn(3)};",
  "\t\tEigen::Vector3d m_CoM = mass * CoM;",
  "\t\tEigen::Matrix3d I_tmp = mass * hat(CoM) * hat(CoM).transpose();",
  "\t\tEigen::Matrix<double, 6, 1> I_tmp_v;",
  "\t\tI_tmp_v << I_tmp(0,0), I_tmp(0,1), I_tmp(0,2), I_tmp(1,1), I_tmp(1,2), I_tmp(2,2);",
  "\t\tEigen::Matrix<double, 6, 1> I;",
  "\t\tI << p_dyn(4), p_dyn(5), p_dyn(6), p_dyn(7), p_dyn(8), p_dyn(9);",
  "\t\tpar_REG.segment(STD_PAR_LINK*i, STD_PAR_LINK) << mass, m_CoM, I+I_tmp_v;",
  "\t}",
  "}",
  "",
  "void thunder_robot::set_par_DYN(const Eigen::VectorXd& par_, bool update_REG){",
  "\tif(par_.size() == par_DYN.size()){",
  "\t\tpar_DYN = par_;",
  "\t} else{",
  "\t\tstd::cout<<\"in setArguments: invalid dimensions of arguments\\n\";",
  "\t}",
  "\t// conversion from REG to DYN",
  "\tif (update_REG)\tupdate_inertial_REG();",
  "}",
  "",
  "void thunder_robot::set_par_REG(const Eigen::VectorXd& par_, bool update_DYN){",
  "\tif(par_.size() == par_REG.size()){",
  "\t\tpar_REG = par_;",
  "\t} else{",
  "\t\tstd::cout<<\"in setArguments: invalid dimensions of arguments\\n\";",
  "\t}",
  "\t// conversion from REG to DYN",
  "\tif (update_DYN)\tupdate_inertial_DYN();",
  "}",
  "",
  "void thunder_robot::set_par_K(const Eigen::VectorXd& par_){",
  "\tif(par_.size() == par_K.size()){",
  "\t\tpar_K = par_;",
  "\t} else{",
  "\t\tstd::cout<<\"in setArguments: invalid dimensions of arguments\\n\";",
  "\t}",
  "}",
  "",
  "void thunder_robot::set_par_D(const Eigen::VectorXd& par_){",
  "\tif(par_.size() == par_D.size()){",
  "\t\tpar_D = par_;",
  "\t} else{",
  "\t\tstd::cout<<\"in setArguments: invalid dimensions of arguments\\n\";",
  "\t}",
  "}",
  "",
  "void thunder_robot::set_par_Dm(const Eigen::VectorXd& par_){",
  "\tif(par_.size() == par_Dm.size()){",
  "\t\tpar_Dm = par_;",
  "\t} else{",
  "\t\tstd::cout<<\"in setArguments: invalid dimensions of arguments\\n\";",
  "\t}",
  "}",
  "",
  "void thunder_robot::set_par_Mm(const Eigen::VectorXd& par_){",
  "\tif(par_.size() == par_Mm.size()){",
  "\t\tpar_Mm = par_;",
  "\t} else{",
  "\t\tstd::cout<<\"in setArguments: invalid dimensions of arguments\\n\";",
  "\t}",
  "}",
  "",
  "void thunder_robot::set_par_Dl(const Eigen::VectorXd& par_){",
  "\tif(par_.size() == par_Dl.size()){",
  "\t\tpar_Dl = par_;",
  "\t} else{",
  "\t\tstd::cout<<\"in setArguments: invalid dimensions of arguments\\n\";",
  "\t}",
  "}",
  "",
  "void thunder_robot::set_par_DHtable(const Eigen::MatrixXd& par_){",
  "\tif(par_.size() == par_DHtable.size()){",
  "\t\tpar_DHtable = par_;",
  "\t} else{",
  "\t\tstd::cout<<\"in setArguments: invalid dimensions of arguments\\n\";",
  "\t}",
  "}",
  "",
  "void thunder_robot::set_par_gravity(const Eigen::VectorXd& par_){",
  "\tif(par_.size() == par_gravity.size()){",
  "\t\tpar_gravity = par_;",
  "\t} else{",
  "\t\tstd::cout<<\"in setArguments: invalid dimensions of arguments\\n\";",
  "\t}",
  "}",
  "",
  "void thunder_robot::set_par_world2L0(const Eigen::VectorXd& par_){",
  "\tif(par_.size() == par_world2L0.size()){",
  "\t\tpar_world2L0 = par_;",
  "\t} else{",
  "\t\tstd::cout<<\"in setArguments: invalid dimensions of arguments\\n\";",
  "\t}",
  "}",
  "",
  "void thunder_robot::set_par_Ln2EE(const Eigen::VectorXd& par_){",
  "\tif(par_.size() == par_Ln2EE.size()){",
  "\t\tpar_Ln2EE = par_;",
  "\t} else{",
  "\t\tstd::cout<<\"in setArguments: invalid dimensions of arguments\\n\";",
  "\t}",
  "}",
  "",
  "Eigen::VectorXd thunder_robot::get_par_DYN(){",
  "\treturn par_DYN;",
  "}",
  "",
  "Eigen::VectorXd thunder_robot::get_par_REG(){",
  "\treturn par_REG;",
  "}",
  "",
  "Eigen::VectorXd thunder_robot::get_par_K(){",
  "\treturn par_K;",
  "}",
  "",
  "Eigen::VectorXd thunder_robot::get_par_D(){",
  "\treturn par_D;",
  "}",
  "",
  "Eigen::VectorXd thunder_robot::get_par_Dm(){",
  "\treturn par_Dm;",
  "}",
  "",
  "Eigen::VectorXd thunder_robot::get_par_Mm(){",
  "\treturn par_Mm;",
  "}",
  "",
  "Eigen::VectorXd thunder_robot::get_par_Dl(){",
  "\treturn par_Dl;",
  "}",
  "",
  "Eigen::MatrixXd thunder_robot::get_par_DHtable(){",
  "\treturn par_DHtable;",
  "}",
  "",
  "Eigen::VectorXd thunder_robot::get_par_gravity(){",
  "\treturn par_gravity;",
  "}",
  "",
  "Eigen::VectorXd thunder_robot::get_par_world2L0(){",
  "\treturn par_world2L0;",
  "}",
  "",
  "Eigen::VectorXd thunder_robot::get_par_Ln2EE(){",
  "\treturn par_Ln2EE;",
  "}",
  "",
  "Eigen::VectorXd thunder_robot::load_par_REG(std::string file_path, bool update_DYN){",
  "\ttry {",
  "\t\tYAML::Node config = YAML::LoadFile(file_path);",
  "\t\tint i;",
  "\t\t// --- Parse dynamics REG --- //",
  "\t\tif (config[\"dynamics\"]){",
  "\t\t\tYAML::Node dynamics = config[\"dynamics\"];",
  "\t\t\tdouble mass, m_cmx, m_cmy, m_cmz, xx, xy, xz, yy, yz, zz;",
  "\t\t\ti = 0;",
  "\t\t\tfor (const auto& node : dynamics) {",
  "\t\t\t\tif (i==n_joints) break;",
  "\t\t\t\tYAML::Node inertial = node.second[\"inertial\"];",
  "\t\t\t\tstd::string linkName = node.first.as<std::string>();",
  "\t\t\t\tmass = inertial[\"mass\"].as<double>();",
  "\t\t\t\tm_cmx = inertial[\"m_CoM_x\"].as<double>();",
  "\t\t\t\tm_cmy = inertial[\"m_CoM_y\"].as<double>();",
  "\t\t\t\tm_cmz = inertial[\"m_CoM_z\"].as<double>();",
  "\t\t\t\txx = inertial[\"Ixx\"].as<double>();",
  "\t\t\t\txy = inertial[\"Ixy\"].as<double>();",
  "\t\t\t\txz = inertial[\"Ixz\"].as<double>();",
  "\t\t\t\tyy = inertial[\"Iyy\"].as<double>();",
  "\t\t\t\tyz = inertial[\"Iyz\"].as<double>();",
  "\t\t\t\tzz = inertial[\"Izz\"].as<double>();",
  "",
  "\t\t\t\tpar_REG.segment(STD_PAR_LINK*i, STD_PAR_LINK) << mass,m_cmx,m_cmy,m_cmz,xx,xy,xz,yy,yz,zz;",
  "\t\t\t\t",
  "\t\t\t\ti++;",
  "\t\t\t}",
  "\t\t\tif (update_DYN) update_inertial_DYN();",
  "\t\t}",
  "\t} catch (const YAML::Exception& e) {",
  "\t\tstd::cerr << \"Error while parsing YAML: \" << e.what() << std::endl;",
  "\t}",
  "\treturn par_REG;",
  "}",
  "",
  "void thunder_robot::load_conf(std::string file_path, bool update_REG){",
  "\ttry {",
  "\t\tYAML::Node config = YAML::LoadFile(file_path);",
  "\t\tint index;",
  "\t\t// --- Parse kinematics --- //",
  "\t\tif (config[\"kinematics\"]){",
  "\t\t\tpar_DHtable.resize(n_joints*4);",
  "\t\t\t// Denavit-Hartenberg",
  "\t\t\tYAML::Node kinematics = config[\"kinematics\"];",
  "\t\t\tstd::vector<double> dh_vect = kinematics[\"DH\"].as<std::vector<double>>();",
  "\t\t\t// par_DHtable = Eigen::Map<Eigen::VectorXd>(&dh_vect[0], nj*4).reshaped<Eigen::RowMajor>(nj, 4);",
  "\t\t\tif (kinematics[\"symb\"]){",
  "\t\t\t\tDHtable_symb = kinematics[\"symb\"].as<std::vector<int>>();",
  "\t\t\t} else {",
  "\t\t\t\t// no parameters here",
  "\t\t\t}",
  "\t\t\tint sz = dh_vect.size();",
  "\t\t\t// par_DHtable.resize(sz);",
  "\t\t\t// for (int i=0; i<sz; i++){",
  "\t\t\t// \t\tpar_DHtable(i) = dh_vect[i];",
  "\t\t\t// \t}",
  "\t\t\t// }",
  "\t\t\t// Eigen::VectorXd gravity_new(sz);",
  "\t\t\tint sz1 = 0;",
  "\t\t\tfor (int i=0; i<sz; i++){",
  "\t\t\t\tif (DHtable_symb[i]){",
  "\t\t\t\t\tpar_DHtable(sz1) = dh_vect[i];",
  "\t\t\t\t\tsz1++;",
  "\t\t\t\t}",
  "\t\t\t}",
  "\t\t\tpar_DHtable.conservativeResize(sz1);",
  "\t\t}",
  "\t\t// - Frame Offsets - //",
  "\t\tif (config[\"Base_to_L0\"]){",
  "\t\t\tpar_world2L0.resize(6);",
  "\t\t\tYAML::Node frame_base = config[\"Base_to_L0\"];",
  "\t\t\tif (frame_base[\"symb\"]){",
  "\t\t\t\tworld2L0_symb = frame_base[\"symb\"].as<std::vector<int>>();",
  "\t\t\t} else {",
  "\t\t\t\t// no parameters here",
  "\t\t\t}",
  "\t\t\t// int sz = 0;",
  "\t\t\t// for (int v : world2L0_symb) if (v) sz++;",
  "\t\t\t// std::cout << \"sz: \" << sz << std::endl;",
  "\t\t\tstd::vector<double> tr = frame_base[\"tr\"].as<std::vector<double>>();",
  "\t\t\tstd::vector<double> ypr = frame_base[\"ypr\"].as<std::vector<double>>();",
  "\t\t\t// Eigen::VectorXd world2L0_new(sz);",
  "\t\t\tint sz1=0, sz2=0;",
  "\t\t\tfor (int i=0; i<3; i++){",
  "\t\t\t\tif (world2L0_symb[i]){",
  "\t\t\t\t\tpar_world2L0(sz1) = tr[i];",
  "\t\t\t\t\tsz1++;",
  "\t\t\t\t}",
  "\t\t\t}",
  "\t\t\tfor (int i=0; i<3; i++){",
  "\t\t\t\tif (world2L0_symb[i+3]){",
  "\t\t\t\t\tpar_world2L0(sz1+sz2) = ypr[i];",
  "\t\t\t\t\tsz2++;",
  "\t\t\t\t}",
  "\t\t\t}",
  "\t\t\tpar_world2L0.conservativeResize(sz1+sz2);",
  "\t\t\t// world2L0 = world2L0_new;",
  "\t\t}",
  "",
  "\t\tif (config[\"Ln_to_EE\"]){",
  "\t\t\tpar_Ln2EE.resize(6);",
  "\t\t\tYAML::Node frame_ee = config[\"Ln_to_EE\"];",
  "\t\t\tif (frame_ee[\"symb\"]){",
  "\t\t\t\tLn2EE_symb = frame_ee[\"symb\"].as<std::vector<int>>();",
  "\t\t\t} else {",
  "\t\t\t\t// no parameters here",
  "\t\t\t}",
  "\t\t\t// int sz = 0;",
  "\t\t\t// for (int v : Ln2EE_symb) if (v) sz++;",
  "\t\t\t// std::cout << \"sz: \" << sz << std::endl;",
  "\t\t\tstd::vector<double> tr = frame_ee[\"tr\"].as<std::vector<double>>();",
  "\t\t\tstd::vector<double> ypr = frame_ee[\"ypr\"].as<std::vector<double>>();",
  "\t\t\t// Eigen::VectorXd Ln2EE_new(sz);",
  "\t\t\tint sz1=0, sz2=0;",
  "\t\t\tfor (int i=0; i<3; i++){",
  "\t\t\t\tif (Ln2EE_symb[i]){",
  "\t\t\t\t\tpar_Ln2EE(sz1) = tr[i];",
  "\t\t\t\t\tsz1++;",
  "\t\t\t\t}",
  "\t\t\t}",
  "\t\t\tfor (int i=0; i<3; i++){",
  "\t\t\t\tif (Ln2EE_symb[i+3]){",
  "\t\t\t\t\tpar_Ln2EE(sz1+sz2) = ypr[i];",
  "\t\t\t\t\tsz2++;",
  "\t\t\t\t}",
  "\t\t\t}",
  "\t\t\tpar_Ln2EE.conservativeResize(sz1+sz2);",
  "\t\t\t// par_Ln2EE = Ln2EE_new;",
  "\t\t}",
  "\t\t",
  "\t\t// --- Parse dynamics --- //",
  "\t\tif (config[\"dynamics\"]){",
  "\t\t\tYAML::Node dynamics = config[\"dynamics\"];",
  "\t\t\tdouble mass, cmx, cmy, cmz, xx, xy, xz, yy, yz, zz;",
  "\t\t\tindex=0;",
  "\t\t\tfor (const auto& node : dynamics) {",
  "\t\t\t\tif (index==n_joints) break;",
  "\t\t\t\tYAML::Node inertial = node.second[\"inertial\"];",
  "\t\t\t\t// - inertial parameters - //",
  "\t\t\t\tstd::string linkName = node.first.as<std::string>();",
  "\t\t\t\tmass = inertial[\"mass\"].as<double>();",
  "\t\t\t\tcmx = inertial[\"CoM_x\"].as<double>();",
  "\t\t\t\tcmy = inertial[\"CoM_y\"].as<double>();",
  "\t\t\t\tcmz = inertial[\"CoM_z\"].as<double>();",
  "\t\t\t\txx = inertial[\"Ixx\"].as<double>();",
  "\t\t\t\txy = inertial[\"Ixy\"].as<double>();",
  "\t\t\t\txz = inertial[\"Ixz\"].as<double>();",
  "\t\t\t\tyy = inertial[\"Iyy\"].as<double>();",
  "\t\t\t\tyz = inertial[\"Iyz\"].as<double>();",
  "\t\t\t\tzz = inertial[\"Izz\"].as<double>();",
  "",
  "\t\t\t\tpar_DYN.segment(STD_PAR_LINK*index, STD_PAR_LINK) << mass,cmx,cmy,cmz,xx,xy,xz,yy,yz,zz;",
  "\t\t\t\t",
  "\t\t\t\t// - link friction - //",
  "\t\t\t\tif (node.second[\"friction\"]){",
  "\t\t\t\t\tstd::vector<double> Dl = node.second[\"friction\"][\"Dl\"].as<std::vector<double>>();",
  "\t\t\t\t\tfor (int j=0; j<Dl_order; j++){",
  "\t\t\t\t\t\tpar_Dl(Dl_order*index + j) = Dl[j];",
  "\t\t\t\t\t}",
  "\t\t\t\t}",
  "\t\t\t\tindex++;",
  "\t\t\t}",
  "\t\t\tif (update_REG) update_inertial_REG();",
  "\t\t}",
  "\t\t// - Gravity - //",
  "\t\tif (config[\"gravity\"]){",
  "\t\t\tpar_gravity.resize(3);",
  "\t\t\tYAML::Node gravity_node = config[\"gravity\"];",
  "\t\t\tif (gravity_node[\"symb\"]){",
  "\t\t\t\tgravity_symb = gravity_node[\"symb\"].as<std::vector<int>>();",
  "\t\t\t} else {",
  "\t\t\t\t// no parameters here",
  "\t\t\t}",
  "\t\t\t// int sz = 0;",
  "\t\t\t// for (int v : gravity_symb) if (v) sz++;",
  "\t\t\tstd::vector<double> grav = gravity_node[\"value\"].as<std::vector<double>>();",
  "\t\t\t// Eigen::VectorXd gravity_new(sz);",
  "\t\t\tint sz1 = 0;",
  "\t\t\tfor (int i=0; i<3; i++){",
  "\t\t\t\tif (gravity_symb[i]){",
  "\t\t\t\t\tpar_gravity(sz1) = grav[i];",
  "\t\t\t\t\tsz1++;",
  "\t\t\t\t}",
  "\t\t\t}",
  "\t\t\tpar_gravity.conservativeResize(sz1);",
  "\t\t\t// par_gravity = gravity_new;",
  "\t\t}",
  "",
  "\t\t// --- Parse elastic --- //",
  "\t\tif (config[\"elastic\"]){",
  "\t\t\tYAML::Node elastic = config[\"elastic\"];",
  "\t\t\tindex = 0;",
  "\t\t\tfor (const auto& node : elastic[\"joints\"]) {",
  "\t\t\t\tif (index==numElasticJoints) break;",
  "\t\t\t\tstd::string jointName = node.first.as<std::string>();",
  "\t\t\t\t// stiffness",
  "\t\t\t\tfor (int j=0; j<K_order; j++){",
  "\t\t\t\t\tstd::vector<double> K = node.second[\"K\"].as<std::vector<double>>();",
  "\t\t\t\t\tpar_K(K_order*index+j) = K[j];",
  "\t\t\t\t\t// std::cout<<\"K_\"<<j<<\": \"<<K[j] << std::endl;",
  "\t\t\t\t}",
  "\t\t\t\t// coupling friction",
  "\t\t\t\tfor (int j=0; j<D_order; j++){",
  "\t\t\t\t\tstd::vector<double> D = node.second[\"D\"].as<std::vector<double>>();",
  "\t\t\t\t\tpar_D(D_order*index + j) = D[j];",
  "\t\t\t\t\t// std::cout<<\"D_\"<<j<<\": \"<<D[j] << std::endl;",
  "\t\t\t\t}",
  "\t\t\t\t// motor friction",
  "\t\t\t\tfor (int j=0; j<Dm_order; j++){",
  "\t\t\t\t\tstd::vector<double> Dm = node.second[\"Dm\"].as<std::vector<double>>();",
  "\t\t\t\t\tpar_Dm(Dm_order*index + j) = Dm[j];",
  "\t\t\t\t\t// std::cout<<\"Dm_\"<<j<<\": \"<<Dm[j] << std::endl;",
  "\t\t\t\t}",
  "\t\t\t\t// motor Inertia",
  "\t\t\t\tpar_Mm(index) = node.second[\"Mm\"].as<double>();",
  "\t\t\t\t// std::cout<<\"Dm_\"<<j<<\": \"<<Dm[j] << std::endl;",
  "\t\t\t\tindex++;",
  "\t\t\t}",
  "\t\t}",
  "\t} catch (const YAML::Exception& e) {",
  "\t\tstd::cerr << \"Error while parsing YAML: \" << e.what() << std::endl;",
  "\t}",
  "}",
  "",
  "// void thunder_robot::load_par_elastic(std::string file_path){",
  "// \t// ----- parsing yaml elastic ----- //",
  "// \ttry {",
  "// \t\t// load yaml",
  "// \t\tYAML::Node config_file = YAML::LoadFile(file_path);",
  "// \t\t// parse elastic",
  "// \t\tYAML::Node elastic = config_file[\"elastic\"];",
  "// \t\tint i = 0;",
  "// \t\tfor (const auto& node : elastic[\"joints\"]) {",
  "\t\t\t",
  "// \t\t\tif (i==numElasticJoints) break;",
  "// \t\t\tstd::string jointName = node.first.as<std::string>();",
  "// \t\t\t// stiffness",
  "// \t\t\tfor (int j=0; j<K_order; j++){",
  "// \t\t\t\tstd::vector<double> K = node.second[\"K\"].as<std::vector<double>>();",
  "// \t\t\t\tpar_K(K_order*i+j) = K[j];",
  "// \t\t\t\tstd::cout<<\"K_\"<<j<<\": \"<<K[j] << std::endl;",
  "// \t\t\t}",
  "// \t\t\t// coupling friction",
  "// \t\t\tfor (int j=0; j<D_order; j++){",
  "// \t\t\t\tstd::vector<double> D = node.second[\"D\"].as<std::vector<double>>();",
  "// \t\t\t\tpar_D(D_order*i + j) = D[j];",
  "// \t\t\t\tstd::cout<<\"D_\"<<j<<\": \"<<D[j] << std::endl;",
  "// \t\t\t}",
  "// \t\t\t// motor friction",
  "// \t\t\tfor (int j=0; j<Dm_order; j++){",
  "// \t\t\t\tstd::vector<double> Dm = node.second[\"Dm\"].as<std::vector<double>>();",
  "// \t\t\t\tpar_Dm(Dm_order*i + j) = Dm[j];",
  "// \t\t\t\tstd::cout<<\"Dm_\"<<j<<\": \"<<Dm[j] << std::endl;",
  "// \t\t\t}",
  "// \t\t\ti++;",
  "// \t\t}",
  "// \t\t// std::cout<<\"YAML_DH letto\"<<std::endl;",
  "// \t\t// std::cout<<\"\\nparam DYN \\n\"<<param_DYN<<std::endl;",
  "// \t} catch (const YAML::Exception& e) {",
  "// \t\tstd::cerr << \"Error while parsing YAML: \" << e.what() << std::endl;",
  "// \t}",
  "// }",
  "",
  "void thunder_robot::save_par_REG(std::string path_yaml_DH_REG){",
  "\tstd::vector<std::string> keys_reg;",
  "\tkeys_reg.resize(5);",
  "\tkeys_reg[0] = \"mass\"; keys_reg[1] = \"m_CoM_\"; keys_reg[2] = \"I\"; keys_reg[3] = \"REG\"; keys_reg[4] = \"regressor\";",
  "\tstd::vector<LinkProp> links_prop_REG;",
  "\tlinks_prop_REG.resize(n_joints);",
  "",
  "\tfor(int i=0; i<n_joints; i++){",
  "\t\tlinks_prop_REG[i].Dl.resize(Dl_order);",
  "\t\tlinks_prop_REG[i].name = \"link\" + std::to_string(i+1);",
  "\t\tlinks_prop_REG[i].mass = par_REG[STD_PAR_LINK*i + 0];",
  "\t\tlinks_prop_REG[i].xyz = {par_REG[STD_PAR_LINK*i + 1], par_REG[STD_PAR_LINK*i + 2], par_REG[STD_PAR_LINK*i + 3]};",
  "\t\tlinks_prop_REG[i].parI[0] = par_REG[STD_PAR_LINK*i + 4];",
  "\t\tlinks_prop_REG[i].parI[1] = par_REG[STD_PAR_LINK*i + 5];",
  "\t\tlinks_prop_REG[i].parI[2] = par_REG[STD_PAR_LINK*i + 6];",
  "\t\tlinks_prop_REG[i].parI[3] = par_REG[STD_PAR_LINK*i + 7];",
  "\t\tlinks_prop_REG[i].parI[4] = par_REG[STD_PAR_LINK*i + 8];",
  "\t\tlinks_prop_REG[i].parI[5] = par_REG[STD_PAR_LINK*i + 9];",
  "\t\tfor (int j=0; j<Dl_order; j++){",
  "\t\t\tlinks_prop_REG[i].Dl[j] = par_Dl[Dl_order*i + j];",
  "\t\t}",
  "\t}",
  "\t// create file",
  "\ttry {",
  "\t\tYAML::Emitter emitter;",
  "\t\tfillInertialYaml(n_joints, emitter, links_prop_REG, keys_reg);",
  "\t\tstd::ofstream fout(path_yaml_DH_REG);",
  "\t\tfout << emitter.c_str();",
  "\t\tfout.close();",
  "",
  "\t\tstd::cout << \"par_REG saved on path: \" << path_yaml_DH_REG << std::endl;",
  "",
  "\t} catch (const YAML::Exception& e) {",
  "\t\tstd::cerr << \"Error while generating YAML: \" << e.what() << std::endl;",
  "\t}",
  "}",
  "",
  "void thunder_robot::save_par_DYN(std::string path_yaml_DH_DYN){",
  "\tstd::vector<std::string> keys_reg;",
  "\tkeys_reg.resize(5);",
  "\tkeys_reg[0] = \"mass\"; keys_reg[1] = \"CoM_\"; keys_reg[2] = \"I\"; keys_reg[3] = \"DYN\"; keys_reg[4] = \"dynamics\";",
  "\tstd::vector<LinkProp> links_prop_DYN;",
  "\tlinks_prop_DYN.resize(n_joints);",
  "",
  "\tfor(int i=0; i<n_joints; i++){",
  "\t\tlinks_prop_DYN[i].Dl.resize(Dl_order);",
  "\t\tlinks_prop_DYN[i].name = \"link\" + std::to_string(i+1);",
  "\t\tlinks_prop_DYN[i].mass = par_DYN[STD_PAR_LINK*i + 0];",
  "\t\tlinks_prop_DYN[i].xyz = {par_DYN[STD_PAR_LINK*i + 1], par_DYN[STD_PAR_LINK*i + 2], par_DYN[STD_PAR_LINK*i + 3]};",
  "\t\tlinks_prop_DYN[i].parI[0] = par_DYN[STD_PAR_LINK*i + 4];",
  "\t\tlinks_prop_DYN[i].parI[1] = par_DYN[STD_PAR_LINK*i + 5];",
  "\t\tlinks_prop_DYN[i].parI[2] = par_DYN[STD_PAR_LINK*i + 6];",
  "\t\tlinks_prop_DYN[i].parI[3] = par_DYN[STD_PAR_LINK*i + 7];",
  "\t\tlinks_prop_DYN[i].parI[4] = par_DYN[STD_PAR_LINK*i + 8];",
  "\t\tlinks_prop_DYN[i].parI[5] = par_DYN[STD_PAR_LINK*i + 9];",
  "\t\tfor (int j=0; j<Dl_order; j++){",
  "\t\t\tlinks_prop_DYN[i].Dl[j] = par_Dl[Dl_order*i + j];",
  "\t\t}",
  "\t}",
  "\t// create file",
  "\ttry {",
  "\t\tYAML::Emitter emitter;",
  "\t\tfillInertialYaml(n_joints, emitter, links_prop_DYN, keys_reg);",
  "\t\tstd::ofstream fout(path_yaml_DH_DYN);",
  "\t\tfout << emitter.c_str();",
  "\t\tfout.close();",
  "",
  "\t\tstd::cout << \"par_DYN saved on path: \" << path_yaml_DH_DYN << std::endl;",
  "",
  "\t} catch (const YAML::Exception& e) {",
  "\t\tstd::cerr << \"Error while generating YAML: \" << e.what() << std::endl;",
  "\t}",
  "}",
  "",
  "int thunder_robot::save_par(std::string par_file){",
  "\ttry {",
  "\t\tYAML::Emitter emitter;",
  "\t\temitter.SetIndent(2);",
  "\t\temitter.SetSeqFormat(YAML::Flow);",
  "",
  "\t\tYAML::Node yamlFile;",
  "",
  "\t\t// - save DHtable - //",
  "\t\tstd::vector<double> DHtable_vect(par_DHtable.data(), par_DHtable.data() + par_DHtable.rows() * par_DHtable.cols());",
  "\t\tyamlFile[\"DHtable\"] = DHtable_vect;",
  "",
  "\t\t// - save world2L0 - //",
  "\t\tstd::vector<double> world2L0_vect(par_world2L0.data(), par_world2L0.data() + par_world2L0.rows() * par_world2L0.cols());",
  "\t\tyamlFile[\"world2L0\"] = world2L0_vect;",
  "",
  "\t\t// - save Ln2EE - //",
  "\t\tstd::vector<double> Ln2EE_vect(par_Ln2EE.data(), par_Ln2EE.data() + par_Ln2EE.rows() * par_Ln2EE.cols());",
  "\t\tyamlFile[\"Ln2EE\"] = Ln2EE_vect;",
  "",
  "\t\t// - save gravity - //",
  "\t\tstd::vector<double> gravity_vect(par_gravity.data(), par_gravity.data() + par_gravity.rows() * par_gravity.cols());",
  "\t\tyamlFile[\"gravity\"] = gravity_vect;",
  "",
  "\t\t// - save par_DYN - //",
  "\t\tstd::vector<double> par_DYN_vect(par_DYN.data(), par_DYN.data() + par_DYN.rows() * par_DYN.cols());",
  "\t\tyamlFile[\"par_DYN\"] = par_DYN_vect;",
  "",
  "\t\t// - save par_REG - //",
  "\t\tstd::vector<double> par_REG_vect(par_REG.data(), par_REG.data() + par_REG.rows() * par_REG.cols());",
  "\t\tyamlFile[\"par_REG\"] = par_REG_vect;",
  "",
  "\t\t// - save par_K - //",
  "\t\tstd::vector<double> par_K_vect(par_K.data(), par_K.data() + par_K.rows() * par_K.cols());",
  "\t\tyamlFile[\"par_K\"] = par_K_vect;",
  "",
  "\t\t// - save par_Dl - //",
  "\t\tstd::vector<double> par_Dl_vect(par_Dl.data(), par_Dl.data() + par_Dl.rows() * par_Dl.cols());",
  "\t\tyamlFile[\"par_Dl\"] = par_Dl_vect;",
  "",
  "\t\t// - save par_D - //",
  "\t\tstd::vector<double> par_D_vect(par_D.data(), par_D.data() + par_D.rows() * par_D.cols());",
  "\t\tyamlFile[\"par_D\"] = par_D_vect;",
  "",
  "\t\t// - save par_Dm - //",
  "\t\tstd::vector<double> par_Dm_vect(par_Dm.data(), par_Dm.data() + par_Dm.rows() * par_Dm.cols());",
  "\t\tyamlFile[\"par_Dm\"] = par_Dm_vect;",
  "",
  "\t\t// - save par_Mm - //",
  "\t\tstd::vector<double> par_Mm_vect(par_Mm.data(), par_Mm.data() + par_Mm.rows() * par_Mm.cols());",
  "\t\tyamlFile[\"par_Mm\"] = par_Mm_vect;",
  "",
  "\t\temitter << yamlFile << YAML::Newline;",
  "",
  "\t\tstd::ofstream fout(par_file);",
  "\t\tfout << emitter.c_str();",
  "\t\tfout.close();",
  "\t} catch (const YAML::Exception& e) {",
  "\t\tstd::cerr << \"Error while generating YAML: \" << e.what() << std::endl;",
  "\t\treturn 0;",
  "\t}",
  "\treturn 1;",
  "}",
  "",
  "// Other functions",
  "void thunder_robot::fillInertialYaml(int n_joints, YAML::Emitter &emitter_, std::vector<LinkProp> &links_prop_, std::vector<std::string> keys_){",
  "\tYAML::Node yamlFile;",
  "\tYAML::Node dynamicsNode;",
  "",
  "\temitter_.SetIndent(2);",
  "\temitter_.SetSeqFormat(YAML::Flow);",
  "\temitter_ << YAML::Comment(",
  "\t\t\"Inertial parameters referred to Denavit-Hartenberg parametrization to use \" + keys_[4] + \"\\n\");",
  "\temitter_ << YAML::Newline;",
  "",
  "\tfor (int i=0;  i<n_joints;  i++) {",
  "",
  "\t\tLinkProp link = links_prop_[i];    ",
  "\t\tYAML::Node linkNode;",
  "\t\tstd::string nodeName;",
  "\t\tYAML::Node linkInertia;",
  "\t\tYAML::Node linkFric;",
  "",
  "\t\tnodeName = link.name;",
  "\t\tlinkInertia[keys_[0]] = link.mass;",
  "\t\tlinkInertia[keys_[1]+\"x\"] = link.xyz[0];",
  "\t\tlinkInertia[keys_[1]+\"y\"] = link.xyz[1];",
  "\t\tlinkInertia[keys_[1]+\"z\"] = link.xyz[2];",
  "\t\tlinkInertia[keys_[2]+\"xx\"] = link.parI[0];",
  "\t\tlinkInertia[keys_[2]+\"xy\"] = link.parI[1];",
  "\t\tlinkInertia[keys_[2]+\"xz\"] = link.parI[2];",
  "\t\tlinkInertia[keys_[2]+\"yy\"] = link.parI[3];",
  "\t\tlinkInertia[keys_[2]+\"yz\"] = link.parI[4];",
  "\t\tlinkInertia[keys_[2]+\"zz\"] = link.parI[5];",
  "\t\t// link friction",
  "\t\tlinkFric[\"Dl\"] = link.Dl;",
  "",
  "\t\tlinkNode[\"inertial\"] = linkInertia;",
  "\t\tlinkNode[\"friction\"] = linkFric;",
  "\t\tdynamicsNode[nodeName] = linkNode;",
  "\t}",
  "\tyamlFile[\"dynamics\"] = dynamicsNode;",
  "\temitter_ << yamlFile << YAML::Newline;",
  "}",
  "",
  "Eigen::Matrix3d thunder_robot::hat(const Eigen::Vector3d v){",
  "\tEigen::Matrix3d vhat;",
  "\t\t\t",
  "\t// chech",
  "\tif(v.size() != 3 ){",
  "\t\tstd::cout<<\"in function hat of class FrameOffset invalid dimension of input\"<<std::endl;",
  "\t}",
  "\t",
  "\tvhat(0,0) = 0;",
  "\tvhat(0,1) = -v[2];",
  "\tvhat(0,2) = v[1];",
  "\tvhat(1,0) = v[2];",
  "\tvhat(1,1) = 0;",
  "\tvhat(1,2) = -v[0];",
  "\tvhat(2,0) = -v[1];",
  "\tvhat(2,1) = v[0];",
  "\tvhat(2,2) = 0;",
  "",
  "\treturn vhat;",
  "}",
  "",
  "Eigen::Matrix3d thunder_robot::rpyRot(const std::vector<double> rpy){",
  "\tEigen::Matrix3d rotTr;",
  "\t",
  "\tdouble cy = cos(rpy[2]);",
  "\tdouble sy = sin(rpy[2]);",
  "\tdouble cp = cos(rpy[1]);",
  "\tdouble sp = sin(rpy[1]);",
  "\tdouble cr = cos(rpy[0]);",
  "\tdouble sr = sin(rpy[0]);",
  "",
  "\t//template R yaw-pitch-roll",
  "\trotTr(0,0)=cy*cp;",
  "\trotTr(0,1)=cy*sp*sr-sy*cr;",
  "\trotTr(0,2)=cy*sp*cr-sy*sr;",
  "\trotTr(1,0)=sy*cp;",
  "\trotTr(1,1)=sy*sp*sr+cy*cr;",
  "\trotTr(1,2)=sy*sp*cr-cy*sr;",
  "\trotTr(2,0)=-sp;",
  "\trotTr(2,1)=cp*sr;",
  "\trotTr(2,2)=cp*cr;",
  "",
  "\treturn rotTr;",
  "}",
  "",
  "Eigen::Matrix3d thunder_robot::createI(const std::vector<double> parI){",
  "\tEigen::Matrix3d I;",
  "\tI(0, 0) = parI[0];",
  "\tI(0, 1) = parI[1];",
  "\tI(0, 2) = parI[2];",
  "\tI(1, 0) = parI[1];",
  "\tI(1, 1) = parI[3];",
  "\tI(1, 2) = parI[4];",
  "\tI(2, 0) = parI[2];",
  "\tI(2, 1) = parI[4];",
  "\tI(2, 2) = parI[5];",
  "",
  "\treturn I;",
  "}",
  "",
  "// ----- generated functions ----- //",
  "/*#-FUNCTIONS_CPP-#*/",
  "",
  "",
  "/*#-OPTIONAL SPACE FOR PYTHON BINDINGS-#*/",
  "",
  ""]

/-- `src/thunder/thunder_robot_template/CMakeLists.txt`, whole file. -/
def cmakeLines : List String := [
  "",
  "cmake_minimum_required(VERSION 3.10)",
  "",
  "include(FetchContent)",
  "",
  "FetchContent_Declare(",
  "  yaml-cpp",
  "  GIT_REPOSITORY https://github.com/jbeder/yaml-cpp.git",
  "  GIT_TAG master # Can be a tag (yaml-cpp-x.x.x), a commit hash, or a branch name (master)",
  ")",
  "FetchContent_MakeAvailable(yaml-cpp)",
  "project(thunder_robot_py)",
  "",
  "set(CMAKE_CXX_STANDARD 14)",
  "",
  "find_package(yaml-cpp REQUIRED)",
  "find_package(Python 3.7 COMPONENTS Interpreter Development REQUIRED)",
  "find_package(pybind11 REQUIRED)",
  "find_package(Eigen3 REQUIRED)",
  "",
  "",
  "pybind11_add_module(thunder_robot_py thunder_robot.cpp robot_gen.cpp)",
  "",
  "target_link_libraries(thunder_robot_py PRIVATE yaml-cpp::yaml-cpp pybind11::module Eigen3::Eigen)"]

/-- The string literal `bindings_template`, src/utils.cpp:283-336. -/
def bindingLines : List String := [
  "",
  "// ----- Python bindings ----- //",
  "namespace py = pybind11;",
  "",
  "PYBIND11_MODULE(thunder_robot_py, m) {",
  "\tpy::class_<thunder_robot>(m, \"thunder_robot\")",
  "\t\t.def(py::init<>())",
  "\t\t.def(\"resizeVariables\", &thunder_robot::resizeVariables)",
  "\t\t.def(\"setArguments\", &thunder_robot::setArguments, \"Set q, dq, dqr, ddqr\", py::arg(\"q\"), py::arg(\"dq\"), py::arg(\"dqr\"), py::arg(\"ddqr\"))",
  "\t\t.def(\"set_q\", &thunder_robot::set_q, \"Set q\", py::arg(\"q\"))",
  "\t\t.def(\"set_dq\", &thunder_robot::set_dq, \"Set dq\", py::arg(\"dq\"))",
  "\t\t.def(\"set_ddq\", &thunder_robot::set_ddq, \"Set ddq\", py::arg(\"ddq\"))",
  "\t\t.def(\"set_d3q\", &thunder_robot::set_d3q, \"Set d3q\", py::arg(\"d3q\"))",
  "\t\t.def(\"set_d4q\", &thunder_robot::set_d4q, \"Set d4q\", py::arg(\"d4q\"))",
  "\t\t.def(\"set_dqr\", &thunder_robot::set_dqr, \"Set dqr\", py::arg(\"dqr\"))",
  "\t\t.def(\"set_ddqr\", &thunder_robot::set_ddqr, \"Set ddqr\", py::arg(\"ddqr\"))",
  "\t\t.def(\"set_x\", &thunder_robot::set_x, \"Set x\", py::arg(\"x\"))",
  "\t\t.def(\"set_dx\", &thunder_robot::set_dx, \"Set dx\", py::arg(\"dx\"))",
  "\t\t.def(\"set_ddx\", &thunder_robot::set_ddx, \"Set ddx\", py::arg(\"ddx\"))",
  "\t\t.def(\"set_ddxr\", &thunder_robot::set_ddxr, \"Set ddxr\", py::arg(\"ddxr\"))",
  "\t\t.def(\"set_w\", &thunder_robot::set_w, \"Set w\", py::arg(\"w\"))",
  "\t\t.def(\"set_par_REG\", &thunder_robot::set_par_REG, \"Set inertial parameters REG\", py::arg(\"par\"), py::arg(\"update_DYN\") = true)",
  "\t\t.def(\"set_par_DYN\", &thunder_robot::set_par_DYN, \"Set inertial parameters DYN\", py::arg(\"par\"), py::arg(\"update_REG\") = true)",
  "\t\t.def(\"set_par_K\", &thunder_robot::set_par_K, \"Set inertial parameters K\", py::arg(\"par\"))",
  "\t\t.def(\"set_par_D\", &thunder_robot::set_par_D, \"Set inertial parameters D\", py::arg(\"par\"))",
  "\t\t.def(\"set_par_Dm\", &thunder_robot::set_par_Dm, \"Set inertial parameters Dm\", py::arg(\"par\"))",
  "\t\t.def(\"set_par_Mm\", &thunder_robot::set_par_Mm, \"Set inertial parameters Mm\", py::arg(\"par\"))",
  "\t\t.def(\"set_par_Dl\", &thunder_robot::set_par_Dl, \"Set inertial parameters Dl\", py::arg(\"par\"))",
  "\t\t.def(\"set_par_DHtable\", &thunder_robot::set_par_DHtable, \"Set inertial parameters DHtable\", py::arg(\"par\"))",
  "\t\t.def(\"set_par_gravity\", &thunder_robot::set_par_gravity, \"Set inertial parameters gravity\", py::arg(\"par\"))",
  "\t\t.def(\"set_par_world2L0\", &thunder_robot::set_par_world2L0, \"Set inertial parameters world2L0\", py::arg(\"par\"))",
  "\t\t.def(\"set_par_Ln2EE\", &thunder_robot::set_par_Ln2EE, \"Set inertial parameters Ln2EE\", py::arg(\"par\"))",
  "\t\t.def(\"get_par_REG\", &thunder_robot::get_par_REG, \"Get par parameters REG\")",
  "\t\t.def(\"get_par_DYN\", &thunder_robot::get_par_DYN, \"Get inertial parameters DYN\")",
  "\t\t.def(\"get_par_K\", &thunder_robot::get_par_K, \"Get par parameters K\")",
  "\t\t.def(\"get_par_D\", &thunder_robot::get_par_D, \"Get par parameters D\")",
  "\t\t.def(\"get_par_Dm\", &thunder_robot::get_par_Dm, \"Get par parameters Dm\")",
  "\t\t.def(\"get_par_Mm\", &thunder_robot::get_par_Mm, \"Get par parameters Mm\")",
  "\t\t.def(\"get_par_Dl\", &thunder_robot::get_par_Dl, \"Get par parameters Dl\")",
  "\t\t.def(\"get_par_DHtable\", &thunder_robot::get_par_DHtable, \"Get par parameters par_DHtable\")",
  "\t\t.def(\"get_par_gravity\", &thunder_robot::get_par_gravity, \"Get par parameters gravity\")",
  "\t\t.def(\"get_par_world2L0\", &thunder_robot::get_par_world2L0, \"Get par parameters world2L0\")",
  "\t\t.def(\"get_par_Ln2EE\", &thunder_robot::get_par_Ln2EE, \"Get par parameters Ln2EE\")",
  "\t\t.def(\"load_par_REG\", &thunder_robot::load_par_REG, \"Load par parameters REG from YAML file\", py::arg(\"file_path\"), py::arg(\"update_DYN\") = true)",
  "\t\t.def(\"load_conf\", &thunder_robot::load_conf, \"Load configuration from YAML file\", py::arg(\"file_path\"), py::arg(\"update_REG\") = true)",
  "\t\t.def(\"save_par_REG\", &thunder_robot::save_par_REG, \"Save par parameters REG to YAML file\", py::arg(\"file_path\"))",
  "\t\t.def(\"save_par_DYN\", &thunder_robot::save_par_DYN, \"Save inertial parameters DYN to YAML file\", py::arg(\"file_path\"))",
  "\t\t.def(\"save_par\", &thunder_robot::save_par, \"Save all parameters into file\", py::arg(\"file_path\"))",
  "\t\t.def(\"get_numJoints\", &thunder_robot::get_numJoints, \"Get number of joints\")",
  "\t\t.def(\"get_numParDYN\", &thunder_robot::get_numParDYN, \"Get number of parameters per link\")",
  "\t\t.def(\"get_numParREG\", &thunder_robot::get_numParREG, \"Get number of parameters\")",
  "/*#-GENERATED_PYTHON_BINDINGS-#*/",
  "}",
  ""]

end Thunder.Text
