/-!
# The code templates shipped with the library

The unchanged contents of the files in `ct_core/templates`, written by `tools/gen_templates.py`.
-/

namespace CT.CodeText.Tpl

/-- Notation: a string literal written out as the list of its characters. -/
local macro "chars!" s:str : term => do
  let cs := s.getString.toList.toArray.map fun c => Lean.Syntax.mkCharLit c
  `([$cs,*])

/-- `ct_core/templates/LinearSystem.tpl.h` (lines 1-61) -/
def linearSystemH : List Char :=
  List.flatten [
    chars! "/**********************************************************************************************************************\n",
    chars! "This file is part of the Control Toolbox (https://github.com/ethz-adrl/control-toolbox), copyright by ETH Zurich.\n",
    chars! "Licensed under the BSD-2 license (see LICENSE file in main directory)\n",
    chars! "**********************************************************************************************************************/\n",
    chars! "\n",
    chars! "#pragma once\n",
    chars! "\n",
    chars! "#include <ct/core/core.h>\n",
    chars! "\n",
    chars! "namespace ct {\n",
    chars! "namespace NS1 {\n",
    chars! "namespace NS2 {\n",
    chars! "\n",
    chars! "class LINEAR_SYSTEM_NAME : public ct::core::LinearSystem<STATE_DIM, CONTROL_DIM, SCALAR>\n",
    chars! "{\n",
    chars! "public:\n",
    chars! "    EIGEN_MAKE_ALIGNED_OPERATOR_NEW\n",
    chars! "\n",
    chars! "    typedef ct::core::LinearSystem<STATE_DIM, CONTROL_DIM, SCALAR> Base;\n",
    chars! "\n",
    chars! "    typedef typename Base::state_vector_t state_vector_t;\n",
    chars! "    typedef typename Base::control_vector_t control_vector_t;\n",
    chars! "    typedef typename Base::state_matrix_t state_matrix_t;\n",
    chars! "    typedef typename Base::state_control_matrix_t state_control_matrix_t;\n",
    chars! "\n",
    chars! "    LINEAR_SYSTEM_NAME(const ct::core::SYSTEM_TYPE& type = ct::core::SYSTEM_TYPE::GENERAL)\n",
    chars! "        : ct::core::LinearSystem<STATE_DIM, CONTROL_DIM>(type)\n",
    chars! "    {\n",
    chars! "        initialize();\n",
    chars! "    }\n",
    chars! "\n",
    chars! "    LINEAR_SYSTEM_NAME(const LINEAR_SYSTEM_NAME& other) { initialize(); }\n",
    chars! "    virtual ~LINEAR_SYSTEM_NAME(){};\n",
    chars! "\n",
    chars! "    virtual LINEAR_SYSTEM_NAME* clone() const override { return new LINEAR_SYSTEM_NAME; }\n",
    chars! "    virtual const state_matrix_t& getDerivativeState(const state_vector_t& x,\n",
    chars! "        const control_vector_t& u,\n",
    chars! "        const SCALAR t = SCALAR(0.0)) override;\n",
    chars! "\n",
    chars! "    virtual const state_control_matrix_t& getDerivativeControl(const state_vector_t& x,\n",
    chars! "        const control_vector_t& u,\n",
    chars! "        const SCALAR t = SCALAR(0.0)) override;\n",
    chars! "\n",
    chars! "private:\n",
    chars! "    void initialize()\n",
    chars! "    {\n",
    chars! "        dFdx_.setZero();\n",
    chars! "        dFdu_.setZero();\n",
    chars! "        vX_.fill(0.0);\n",
    chars! "        vU_.fill(0.0);\n",
    chars! "    }\n",
    chars! "\n",
    chars! "    state_matrix_t dFdx_;\n",
    chars! "    state_control_matrix_t dFdu_;\n",
    chars! "    std::array<SCALAR, MAX_COUNT_STATE> vX_;\n",
    chars! "    std::array<SCALAR, MAX_COUNT_CONTROL> vU_;\n",
    chars! "};\n",
    chars! "\n",
    chars! "}  // namespace NS2\n",
    chars! "}  // namespace NS1\n",
    chars! "}  // namespace ct\n"]

/-- `ct_core/templates/LinearSystem.tpl.cpp` (lines 1-47) -/
def linearSystemCpp : List Char :=
  List.flatten [
    chars! "/**********************************************************************************************************************\n",
    chars! "This file is part of the Control Toolbox (https://github.com/ethz-adrl/control-toolbox), copyright by ETH Zurich.\n",
    chars! "Licensed under the BSD-2 license (see LICENSE file in main directory)\n",
    chars! "**********************************************************************************************************************/\n",
    chars! "\n",
    chars! "// clang-format off\n",
    chars! "\n",
    chars! "#include \"LINEAR_SYSTEM_NAME.h\"\n",
    chars! "\n",
    chars! "namespace ct {\n",
    chars! "namespace NS1 {\n",
    chars! "namespace NS2 {\n",
    chars! "\n",
    chars! "\n",
    chars! "const LINEAR_SYSTEM_NAME::state_matrix_t& LINEAR_SYSTEM_NAME::getDerivativeState(\n",
    chars! "    const state_vector_t& x,\n",
    chars! "    const control_vector_t& u,\n",
    chars! "    const SCALAR t)\n",
    chars! "{\n",
    chars! "    SCALAR* jac = dFdx_.data();\n",
    chars! "    Eigen::Matrix<SCALAR, STATE_DIM + CONTROL_DIM, 1> x_in;\n",
    chars! "    x_in << x, u;\n",
    chars! "\n",
    chars! "    AUTOGENERATED_CODE_PLACEHOLDER_JAC_A\n",
    chars! "\n",
    chars! "    return dFdx_;\n",
    chars! "}\n",
    chars! "\n",
    chars! "const LINEAR_SYSTEM_NAME::state_control_matrix_t& LINEAR_SYSTEM_NAME::getDerivativeControl(\n",
    chars! "    const state_vector_t& x,\n",
    chars! "    const control_vector_t& u,\n",
    chars! "    const SCALAR t)\n",
    chars! "{\n",
    chars! "    SCALAR* jac = dFdu_.data();\n",
    chars! "    Eigen::Matrix<SCALAR, STATE_DIM + CONTROL_DIM, 1> x_in;\n",
    chars! "    x_in << x, u;\n",
    chars! "\n",
    chars! "    AUTOGENERATED_CODE_PLACEHOLDER_JAC_B\n",
    chars! "\n",
    chars! "    return dFdu_;\n",
    chars! "}\n",
    chars! "\n",
    chars! "} // namespace NS2\n",
    chars! "} // namespace NS1\n",
    chars! "} // namespace ct\n",
    chars! "\n",
    chars! "// clang-format on\n"]

/-- `ct_core/templates/DiscreteLinearSystem.tpl.h` (lines 1-75) -/
def discreteH : List Char :=
  List.flatten [
    chars! "/**********************************************************************************************************************\n",
    chars! "This file is part of the Control Toolbox (https://github.com/ethz-adrl/control-toolbox), copyright by ETH Zurich.\n",
    chars! "Licensed under the BSD-2 license (see LICENSE file in main directory)\n",
    chars! "**********************************************************************************************************************/\n",
    chars! "\n",
    chars! "#pragma once\n",
    chars! "\n",
    chars! "#include <ct/core/core.h>\n",
    chars! "\n",
    chars! "namespace ct {\n",
    chars! "namespace NS1 {\n",
    chars! "namespace NS2 {\n",
    chars! "\n",
    chars! "class LINEAR_SYSTEM_NAME : public ct::core::DiscreteLinearSystem<STATE_DIM, CONTROL_DIM, SCALAR>\n",
    chars! "{\n",
    chars! "public:\n",
    chars! "    EIGEN_MAKE_ALIGNED_OPERATOR_NEW\n",
    chars! "\n",
    chars! "    typedef ct::core::DiscreteLinearSystem<STATE_DIM, CONTROL_DIM, SCALAR> Base;\n",
    chars! "\n",
    chars! "    typedef typename Base::state_vector_t state_vector_t;\n",
    chars! "    typedef typename Base::control_vector_t control_vector_t;\n",
    chars! "    typedef typename Base::state_matrix_t state_matrix_t;\n",
    chars! "    typedef typename Base::state_control_matrix_t state_control_matrix_t;\n",
    chars! "\n",
    chars! "    LINEAR_SYSTEM_NAME(const ct::core::SYSTEM_TYPE& type = ct::core::SYSTEM_TYPE::GENERAL) : Base(type)\n",
    chars! "    {\n",
    chars! "        initialize();\n",
    chars! "    }\n",
    chars! "\n",
    chars! "    LINEAR_SYSTEM_NAME(const LINEAR_SYSTEM_NAME& other) { initialize(); }\n",
    chars! "    virtual ~LINEAR_SYSTEM_NAME(){};\n",
    chars! "\n",
    chars! "    virtual LINEAR_SYSTEM_NAME* clone() const override { return new LINEAR_SYSTEM_NAME; }\n",
    chars! "    void getAandB(const state_vector_t& x,\n",
    chars! "        const control_vector_t& u,\n",
    chars! "        const state_vector_t& x_next,\n",
    chars! "        const int n,\n",
    chars! "        size_t numSteps,\n",
    chars! "        state_matrix_t& A,\n",
    chars! "        state_control_matrix_t& B) override\n",
    chars! "    {\n",
    chars! "        getDerivativeState(x, u, n);\n",
    chars! "        getDerivativeControl(x, u, n);\n",
    chars! "\n",
    chars! "        A = dFdx_;\n",
    chars! "        B = dFdu_;\n",
    chars! "    }\n",
    chars! "\n",
    chars! "    virtual const state_matrix_t& getDerivativeState(const state_vector_t& x,\n",
    chars! "        const control_vector_t& u,\n",
    chars! "        const int t = 0);\n",
    chars! "\n",
    chars! "    virtual const state_control_matrix_t& getDerivativeControl(const state_vector_t& x,\n",
    chars! "        const control_vector_t& u,\n",
    chars! "        const int t = 0);\n",
    chars! "\n",
    chars! "private:\n",
    chars! "    void initialize()\n",
    chars! "    {\n",
    chars! "        dFdx_.setZero();\n",
    chars! "        dFdu_.setZero();\n",
    chars! "        vX_.fill(0.0);\n",
    chars! "        vU_.fill(0.0);\n",
    chars! "    }\n",
    chars! "\n",
    chars! "    state_matrix_t dFdx_;\n",
    chars! "    state_control_matrix_t dFdu_;\n",
    chars! "    std::array<SCALAR, MAX_COUNT_STATE> vX_;\n",
    chars! "    std::array<SCALAR, MAX_COUNT_CONTROL> vU_;\n",
    chars! "};\n",
    chars! "\n",
    chars! "}  // namespace NS2\n",
    chars! "}  // namespace NS1\n",
    chars! "}  // namespace ct\n"]

/-- `ct_core/templates/DiscreteLinearSystem.tplA.cpp` (lines 1-32) -/
def discreteA : List Char :=
  List.flatten [
    chars! "/**********************************************************************************************************************\n",
    chars! "This file is part of the Control Toolbox (https://github.com/ethz-adrl/control-toolbox), copyright by ETH Zurich.\n",
    chars! "Licensed under the BSD-2 license (see LICENSE file in main directory)\n",
    chars! "**********************************************************************************************************************/\n",
    chars! "\n",
    chars! "// clang-format off\n",
    chars! "\n",
    chars! "#include \"LINEAR_SYSTEM_NAME.h\"\n",
    chars! "\n",
    chars! "namespace ct {\n",
    chars! "namespace NS1 {\n",
    chars! "namespace NS2 {\n",
    chars! "\n",
    chars! "const LINEAR_SYSTEM_NAME::state_matrix_t& LINEAR_SYSTEM_NAME::getDerivativeState(\n",
    chars! "    const state_vector_t& x,\n",
    chars! "    const control_vector_t& u,\n",
    chars! "    const int t)\n",
    chars! "{\n",
    chars! "    SCALAR* jac = dFdx_.data();\n",
    chars! "    Eigen::Matrix<SCALAR, STATE_DIM + CONTROL_DIM, 1> x_in;\n",
    chars! "    x_in << x, u;\n",
    chars! "\n",
    chars! "    AUTOGENERATED_CODE_PLACEHOLDER_JAC_A\n",
    chars! "\n",
    chars! "    return dFdx_;\n",
    chars! "}\n",
    chars! "\n",
    chars! "} // namespace NS2\n",
    chars! "} // namespace NS1\n",
    chars! "} // namespace ct\n",
    chars! "\n",
    chars! "// clang-format on\n"]

/-- `ct_core/templates/DiscreteLinearSystem.tplB.cpp` (lines 1-32) -/
def discreteB : List Char :=
  List.flatten [
    chars! "/**********************************************************************************************************************\n",
    chars! "This file is part of the Control Toolbox (https://github.com/ethz-adrl/control-toolbox), copyright by ETH Zurich.\n",
    chars! "Licensed under the BSD-2 license (see LICENSE file in main directory)\n",
    chars! "**********************************************************************************************************************/\n",
    chars! "\n",
    chars! "// clang-format off\n",
    chars! "\n",
    chars! "#include \"LINEAR_SYSTEM_NAME.h\"\n",
    chars! "\n",
    chars! "namespace ct {\n",
    chars! "namespace NS1 {\n",
    chars! "namespace NS2 {\n",
    chars! "\n",
    chars! "const LINEAR_SYSTEM_NAME::state_control_matrix_t& LINEAR_SYSTEM_NAME::getDerivativeControl(\n",
    chars! "    const state_vector_t& x,\n",
    chars! "    const control_vector_t& u,\n",
    chars! "    const int t)\n",
    chars! "{\n",
    chars! "    SCALAR* jac = dFdu_.data();\n",
    chars! "    Eigen::Matrix<SCALAR, STATE_DIM + CONTROL_DIM, 1> x_in;\n",
    chars! "    x_in << x, u;\n",
    chars! "\n",
    chars! "    AUTOGENERATED_CODE_PLACEHOLDER_JAC_B\n",
    chars! "\n",
    chars! "    return dFdu_;\n",
    chars! "}\n",
    chars! "\n",
    chars! "} // namespace NS2\n",
    chars! "} // namespace NS1\n",
    chars! "} // namespace ct\n",
    chars! "\n",
    chars! "// clang-format on\n"]

/-- `ct_core/templates/Jacobian.tpl.h` (lines 1-46) -/
def jacobianH : List Char :=
  List.flatten [
    chars! "/**********************************************************************************************************************\n",
    chars! "This file is part of the Control Toolbox (https://github.com/ethz-adrl/control-toolbox), copyright by ETH Zurich.\n",
    chars! "Licensed under the BSD-2 license (see LICENSE file in main directory)\n",
    chars! "**********************************************************************************************************************/\n",
    chars! "\n",
    chars! "#pragma once\n",
    chars! "\n",
    chars! "#include <ct/core/math/Derivatives.h>\n",
    chars! "\n",
    chars! "namespace ct {\n",
    chars! "namespace NS1 {\n",
    chars! "namespace NS2 {\n",
    chars! "\n",
    chars! "class DERIVATIVE_NAME : public core::Derivatives<IN_DIM, OUT_DIM, double>\n",
    chars! "{\n",
    chars! "public:\n",
    chars! "    EIGEN_MAKE_ALIGNED_OPERATOR_NEW\n",
    chars! "\n",
    chars! "    typedef Eigen::Matrix<double, OUT_DIM, IN_DIM> JAC_TYPE;\n",
    chars! "    typedef Eigen::Matrix<double, IN_DIM, 1> X_TYPE;\n",
    chars! "\n",
    chars! "    DERIVATIVE_NAME()\n",
    chars! "    {\n",
    chars! "        jac_.setZero();\n",
    chars! "        v_.fill(0.0);\n",
    chars! "    };\n",
    chars! "\n",
    chars! "    DERIVATIVE_NAME(const DERIVATIVE_NAME& other)\n",
    chars! "    {\n",
    chars! "        jac_.setZero();\n",
    chars! "        v_.fill(0.0);\n",
    chars! "    }\n",
    chars! "\n",
    chars! "    virtual ~DERIVATIVE_NAME(){};\n",
    chars! "\n",
    chars! "    DERIVATIVE_NAME* clone() const override { return new DERIVATIVE_NAME(*this); }\n",
    chars! "    JAC_TYPE jacobian(const Eigen::VectorXd& x_in) override;\n",
    chars! "\n",
    chars! "private:\n",
    chars! "    JAC_TYPE jac_;\n",
    chars! "    std::array<double, MAX_COUNT> v_;\n",
    chars! "};\n",
    chars! "\n",
    chars! "}  // namespace NS2\n",
    chars! "}  // namespace NS1\n",
    chars! "}  // namespace ct\n"]

/-- `ct_core/templates/Jacobian.tpl.cpp` (lines 1-28) -/
def jacobianCpp : List Char :=
  List.flatten [
    chars! "/**********************************************************************************************************************\n",
    chars! "This file is part of the Control Toolbox (https://github.com/ethz-adrl/control-toolbox), copyright by ETH Zurich.\n",
    chars! "Licensed under the BSD-2 license (see LICENSE file in main directory)\n",
    chars! "**********************************************************************************************************************/\n",
    chars! "\n",
    chars! "// clang-format off\n",
    chars! "\n",
    chars! "#include \"DERIVATIVE_NAME.h\"\n",
    chars! "\n",
    chars! "namespace ct {\n",
    chars! "namespace NS1 {\n",
    chars! "namespace NS2 {\n",
    chars! "\n",
    chars! "\n",
    chars! "DERIVATIVE_NAME::JAC_TYPE DERIVATIVE_NAME::jacobian(const Eigen::VectorXd& x_in)\n",
    chars! "{\n",
    chars! "    double* jac = jac_.data();\n",
    chars! "\n",
    chars! "    AUTOGENERATED_CODE_PLACEHOLDER\n",
    chars! "\n",
    chars! "    return jac_;\n",
    chars! "}\n",
    chars! "\n",
    chars! "} // namespace NS2\n",
    chars! "} // namespace NS1\n",
    chars! "} // namespace ct\n",
    chars! "\n",
    chars! "// clang-format on\n"]

/-- `ct_core/templates/Hessian.tpl.h` (lines 1-46) -/
def hessianH : List Char :=
  List.flatten [
    chars! "/**********************************************************************************************************************\n",
    chars! "This file is part of the Control Toolbox (https://github.com/ethz-adrl/control-toolbox), copyright by ETH Zurich.\n",
    chars! "Licensed under the BSD-2 license (see LICENSE file in main directory)\n",
    chars! "**********************************************************************************************************************/\n",
    chars! "\n",
    chars! "#pragma once\n",
    chars! "\n",
    chars! "#include <ct/core/math/Derivatives.h>\n",
    chars! "\n",
    chars! "namespace ct {\n",
    chars! "namespace NS1 {\n",
    chars! "namespace NS2 {\n",
    chars! "\n",
    chars! "class DERIVATIVE_NAME : public core::Derivatives<IN_DIM, OUT_DIM, double>\n",
    chars! "{\n",
    chars! "public:\n",
    chars! "    EIGEN_MAKE_ALIGNED_OPERATOR_NEW\n",
    chars! "\n",
    chars! "    typedef Eigen::Matrix<double, IN_DIM, IN_DIM> HES_TYPE;\n",
    chars! "    typedef Eigen::Matrix<double, IN_DIM, 1> X_TYPE;\n",
    chars! "\n",
    chars! "    DERIVATIVE_NAME()\n",
    chars! "    {\n",
    chars! "        hessian_.setZero();\n",
    chars! "        v_.fill(0.0);\n",
    chars! "    };\n",
    chars! "\n",
    chars! "    DERIVATIVE_NAME(const DERIVATIVE_NAME& other)\n",
    chars! "    {\n",
    chars! "        hessian_.setZero();\n",
    chars! "        v_.fill(0.0);\n",
    chars! "    }\n",
    chars! "\n",
    chars! "    virtual ~DERIVATIVE_NAME(){};\n",
    chars! "\n",
    chars! "    DERIVATIVE_NAME* clone() const override { return new DERIVATIVE_NAME(*this); }\n",
    chars! "    HES_TYPE hessian(const Eigen::VectorXd& x_in, const Eigen::VectorXd& w_in) override;\n",
    chars! "\n",
    chars! "private:\n",
    chars! "    HES_TYPE hessian_;\n",
    chars! "    std::array<double, MAX_COUNT> v_;\n",
    chars! "};\n",
    chars! "\n",
    chars! "}  // namespace NS2\n",
    chars! "}  // namespace NS1\n",
    chars! "}  // namespace ct\n"]

/-- `ct_core/templates/Hessian.tpl.cpp` (lines 1-28) -/
def hessianCpp : List Char :=
  List.flatten [
    chars! "/**********************************************************************************************************************\n",
    chars! "This file is part of the Control Toolbox (https://github.com/ethz-adrl/control-toolbox), copyright by ETH Zurich.\n",
    chars! "Licensed under the BSD-2 license (see LICENSE file in main directory)\n",
    chars! "**********************************************************************************************************************/\n",
    chars! "\n",
    chars! "// clang-format off\n",
    chars! "\n",
    chars! "#include \"DERIVATIVE_NAME.h\"\n",
    chars! "\n",
    chars! "namespace ct {\n",
    chars! "namespace NS1 {\n",
    chars! "namespace NS2 {\n",
    chars! "\n",
    chars! "\n",
    chars! "DERIVATIVE_NAME::HES_TYPE DERIVATIVE_NAME::hessian(const Eigen::VectorXd& x_in, const Eigen::VectorXd& w_in)\n",
    chars! "{\n",
    chars! "    double* hes = hessian_.data();\n",
    chars! "\n",
    chars! "    AUTOGENERATED_CODE_PLACEHOLDER\n",
    chars! "\n",
    chars! "    return hessian_;\n",
    chars! "}\n",
    chars! "\n",
    chars! "} // namespace NS2\n",
    chars! "} // namespace NS1\n",
    chars! "} // namespace ct\n",
    chars! "\n",
    chars! "// clang-format on\n"]

/-- `ct_core/templates/ForwardZero.tpl.h` (lines 1-46) -/
def forwardZeroH : List Char :=
  List.flatten [
    chars! "/**********************************************************************************************************************\n",
    chars! "This file is part of the Control Toolbox (https://github.com/ethz-adrl/control-toolbox), copyright by ETH Zurich.\n",
    chars! "Licensed under the BSD-2 license (see LICENSE file in main directory)\n",
    chars! "**********************************************************************************************************************/\n",
    chars! "\n",
    chars! "#pragma once\n",
    chars! "\n",
    chars! "#include <ct/core/math/Derivatives.h>\n",
    chars! "\n",
    chars! "namespace ct {\n",
    chars! "namespace NS1 {\n",
    chars! "namespace NS2 {\n",
    chars! "\n",
    chars! "class DERIVATIVE_NAME : public core::Derivatives<IN_DIM, OUT_DIM, double>\n",
    chars! "{\n",
    chars! "public:\n",
    chars! "    EIGEN_MAKE_ALIGNED_OPERATOR_NEW\n",
    chars! "\n",
    chars! "    typedef Eigen::Matrix<double, OUT_DIM, 1> OUT_TYPE;\n",
    chars! "    typedef Eigen::Matrix<double, IN_DIM, 1> X_TYPE;\n",
    chars! "\n",
    chars! "    DERIVATIVE_NAME()\n",
    chars! "    {\n",
    chars! "        eval_.setZero();\n",
    chars! "        v_.fill(0.0);\n",
    chars! "    };\n",
    chars! "\n",
    chars! "    DERIVATIVE_NAME(const DERIVATIVE_NAME& other)\n",
    chars! "    {\n",
    chars! "        eval_.setZero();\n",
    chars! "        v_.fill(0.0);\n",
    chars! "    }\n",
    chars! "\n",
    chars! "    virtual ~DERIVATIVE_NAME(){};\n",
    chars! "\n",
    chars! "    DERIVATIVE_NAME* clone() const override { return new DERIVATIVE_NAME(*this); }\n",
    chars! "    OUT_TYPE forwardZero(const Eigen::VectorXd& x_in) override;\n",
    chars! "\n",
    chars! "private:\n",
    chars! "    OUT_TYPE eval_;\n",
    chars! "    std::array<double, MAX_COUNT> v_;\n",
    chars! "};\n",
    chars! "\n",
    chars! "}  // namespace NS2\n",
    chars! "}  // namespace NS1\n",
    chars! "}  // namespace ct\n"]

/-- `ct_core/templates/ForwardZero.tpl.cpp` (lines 1-28) -/
def forwardZeroCpp : List Char :=
  List.flatten [
    chars! "/**********************************************************************************************************************\n",
    chars! "This file is part of the Control Toolbox (https://github.com/ethz-adrl/control-toolbox), copyright by ETH Zurich.\n",
    chars! "Licensed under the BSD-2 license (see LICENSE file in main directory)\n",
    chars! "**********************************************************************************************************************/\n",
    chars! "\n",
    chars! "// clang-format off\n",
    chars! "\n",
    chars! "#include \"DERIVATIVE_NAME.h\"\n",
    chars! "\n",
    chars! "namespace ct {\n",
    chars! "namespace NS1 {\n",
    chars! "namespace NS2 {\n",
    chars! "\n",
    chars! "\n",
    chars! "DERIVATIVE_NAME::OUT_TYPE DERIVATIVE_NAME::forwardZero(const Eigen::VectorXd& x_in)\n",
    chars! "{\n",
    chars! "    double* forwardZero = eval_.data();\n",
    chars! "\n",
    chars! "    AUTOGENERATED_CODE_PLACEHOLDER\n",
    chars! "\n",
    chars! "    return eval_;\n",
    chars! "}\n",
    chars! "\n",
    chars! "} // namespace NS2\n",
    chars! "} // namespace NS1\n",
    chars! "} // namespace ct\n",
    chars! "\n",
    chars! "// clang-format on\n"]

end CT.CodeText.Tpl
