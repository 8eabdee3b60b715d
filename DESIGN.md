# Formal model of control-toolbox: design

Source: `/repo` (ethz-adrl/control-toolbox, C++ templates), read as text.
Target: Lean 4.33 + Mathlib, project in `lean/`, modules under `lean/Verif/`.

## Layout

* `Verif/Model/*.lean` – definitions that mirror the C++ code, function by function.
  Every definition cites file and lines and states its simplifications.
* `Verif/Proof/*.lean` – helper lemmas.
* `Verif/Props/*.lean` – small independent specifications and the property theorems
  (`Cxx_...`), each with an `example` that meets its hypotheses.
* `MANIFEST.json` – property → theorem names.
* `seeded/LOG.jsonl` – record of attempts to break the theorems with realistic bugs in the model. `failed` are the theorems at which
  the build stopped with an error; `dependent` are claims that rest on them according to the present source (not observed).

## Modelling conventions

* **Numbers.** Code that only compares numbers is modelled over an arbitrary `LinearOrder`
  (so it covers all non-NaN doubles). Code that computes is modelled over an arbitrary ordered
  field, or over `ℝ` when square roots, integrals or spectral facts are needed. This idealises
  floating point: rounding, overflow and NaN are outside the model unless a definition says
  otherwise.
* **Containers.** `std::vector`/`DiscreteArray` become `List` (or functions on `Fin n` for
  fixed-size Eigen vectors). Matrices are Mathlib matrices.
* **Exceptions and undefined behaviour.** Results are `Except`/`Option`-like outcomes;
  out-of-bounds accesses and reads of uninitialised memory are a distinct outcome, never a
  default value.
* **Mutation** becomes returning a new object. **External calls** (user dynamics, cost terms,
  stepper of boost, Eigen solvers) become parameters; hypotheses on them are visible in the
  theorem.
* **Concurrency.** Workers are interleaved step by step; an execution is any finite sequence of
  (thread, step) choices.
* **Templates** are modelled at the generic level; scalar type `SCALAR` is the field.

When the code contradicts the property, the negation is proved with a concrete witness
(`..._violated`), together with the strongest true part (`..._partial`).

## Trusted base

* Lean's kernel and the axioms `propext`, `Classical.choice`, `Quot.sound` (Mathlib).
  No other axioms, no `sorry`, no `native_decide`/`bv_decide`.
* The correspondence between the C++ text and the Lean definitions (by inspection; citations in
  comments).
* The idealisations listed above.
* `AXIOMS.md` lists the axioms of every theorem of the manifest as printed by Lean.

Not modelled: Eigen, boost odeint adaptive steppers, CppAD code generation, IPOPT/SNOPT/HPIPM
internals, LAPACK Schur reordering, file loading, printing, Matlab export, kindr geometry,
RobCoGen generated dynamics, floating point rounding. Further limits:

* Threads are interleaved under sequential consistency; memory-order effects are outside the model. The sweeps of C102
  and C106 are those of the single-threaded backend.
* Exceptions thrown inside worker threads (for example by the unimplemented `GOLDSTEIN` search) are not modelled.
* Conversions of large floating-point numbers to integers are assumed not to overflow except where a definition says so.
* HPIPM and Ipopt are what their interfaces read and return; whether they solve their problems is not claimed.
* `SteadyStateKalmanFilter` cannot be instantiated as it stands (it calls `SystemModelBase` with too few arguments), so
  C96 is about `update` only. `InputDisturbedSystem`'s copy constructor copies from itself (InputDisturbedSystem-impl.h:21)
  and is not modelled.

## Plan per property

| id | model | proof |
|----|-------|-------|
| C01 | `Interpolation::findIndex` with its cached index as state, over a linear order; trajectory operations as a labelled transition system | characterise result as "largest stamp not after query"; induction over history |
| C02 | `interpolate` with throw outcomes | case analysis on the index characterisation |
| C03 | trajectory operations on (stamps, samples) | invariant by induction over operation list |
| C04 | `shiftTime`, `eval` | equivariance of index search and of the blend |
| C05 | `DiscreteArray` operators on lists | list induction |
| C06 | `linspace` accumulation loop | loop invariant |
| C07 | `PhaseSequence` | fold invariant, `upper_bound` characterisation |
| C08 | switched systems as dispatch through C07 | from C07 |
| C09 | `ExternallyDrivenTimer` state machine | induction over call history |
| C10 | activation classes | direct, with floor arithmetic for the periodic one |
| C11 | `QuantizationNoise` table | order arguments; out-of-bounds outcome |
| C12 | `PIDController` state machine | invariant over histories |
| C13 | same | observational equivalence by induction |
| C14 | `StateFeedbackController` | direct from C01/C02 |
| C15 | `integrate_n_steps` loop and observer | induction on n |
| C16 | Euler/RK4 `do_step` on a module / matrix algebra | polynomial identities |
| C17 | observer with event handlers, exception outcome | induction |
| C18 | symplectic Euler step | block-matrix determinant |
| C19 | `SensitivityApproximation` matrices | matrix identities, derivative as linear map |
| C20 | variational Euler/RK4 | induction over sub-steps |
| C21 | `ControlSimulator::simulateSystem` step bookkeeping | arithmetic; expected violation for non-integer ratios |
| C22 | `lu`, `solveLU`, `ldlt`, `solveLDLT` loops | induction over elimination |
| C23 | forward/central differences | identities |
| C24 | `SecondOrderSystem` | field arithmetic |
| C25 | controllability/observability block writes with bounds | index arithmetic, expected violation for observability |
| C26 | `CppadParallel` map | invariant over request histories |
| C27 | `MpcTimeKeeper` with external timer | invariant over iterations |
| C28 | `MpcTimeHorizon` | direct |
| C29 | `StateFeedbackPolicyHandler` on lists | list arithmetic; expected violation of stamps when extending |
| C30 | `truncateSolutionFront` | from C01/C04 |
| C31 | `MPC::finishIteration` bookkeeping | direct; expected violation in first iteration |
| C32 | violation formulas | direct |
| C33 | container stacking and flags | fold/induction |
| C34 | sparse/dense Jacobians | index arithmetic |
| C35 | box constraints | list filter arguments |
| C36 | cost terms | exact Taylor identities |
| C37 | cost function sum with activations | fold; expected violation for fractional activation |
| C38 | `GNRiccatiSolver` backward/forward sweep | dynamic programming by completion of squares |
| C39 | stage-wise sweeps | fold append |
| C40 | Hamiltonian matrix and final solve | block matrix algebra |
| C41 | Riccati iteration | PSD invariants, completion of squares |
| C42 | EKF predict/update | PSD invariants |
| C43 | UKF weights and sigma points | finite sums |
| C44 | constraint stacking | list induction |
| C45 | index maps | arithmetic |
| C46 | `setInitGuess` with integer division | expected violation for N ≥ 2 |
| C47 | `TimeGrid` | arithmetic |
| C48 | splines | arithmetic |
| C49 | triplet generation | index arithmetic |
| C50 | counting | expected violation for input-dependent general constraints |
| C51 | weights | sums; expected violation for piecewise-linear |
| C52 | `DmsProblem` configuration calls | expected violation |
| C53 | shot caches with update counters | invariant over histories |
| C54 | `rolloutSingleShot`, `computeSingleDefect` | loop invariants |
| C55 | line search | induction; expected violation for defects |
| C56 | MP worker loop | interleaving invariant |
| C57 | MP line search | interleaving counter-example plus partial |
| C58 | condition variables | interleaving counter-example plus partial |
| C59 | return expression | direct; expected violation |
| C60 | buffer sizes | invariant |
| C61 | `SingleDOFTrajectoryGenerator` over ℝ | calculus and algebra |
| C62 | wrap with floor | floor arithmetic |
| C63 | vector packing | list/Fin arithmetic |
| C64 | contact model | direct; expected violation for inactive end effectors |
| C65 | actuator dynamics | field arithmetic |
| C66 | arg-min loop | induction |
| C67 | barrier activations over ℝ | derivatives (`HasDerivAt`), shape by cases |
| C68 | Gaussian activation | monotonicity of `exp`; expected violation of the value constructor |
| C69 | `extractControlTrajectory` loop | induction over the state trajectory |
| C70 | controller call inside the symplectic stepper | direct; expected violation of the time argument |
| C71 | recording observer of the symplectic integrator | induction over steps |
| C72 | discretisation by matrix exponential | series of the block exponential, variation of constants |
| C73 | `SystemDiscretizer` as an object with lazily built integrator | invariant over histories |
| C74 | rank test of the controllability matrix | Cayley–Hamilton and Krylov subspaces |
| C75 | Gramian accumulation loop | induction |
| C76 | numerical differentiation of cost functions as object updates | exact form of the difference quotients |
| C77 | `clone` of cost functions and terms | case analysis per class |
| C78 | `CostFunctionQuadraticSimple` | Fréchet derivative |
| C79 | state barrier term | array bounds |
| C80 | time arguments in filters and system models | direct |
| C81 | Hessian values and pattern of NLP containers | list induction with bounds |
| C82 | rows and columns of discretised constraints | index arithmetic |
| C83 | shot sensitivities with splines | induction over steps, chain rule |
| C84 | stage times and `configure` | from C60's buffers |
| C85 | arm trajectory generator | sampling of C61 |
| C86 | constructors and accessors of poses | case analysis |
| C87 | `FHDTLQR` with its checks | induction over stages |
| C88 | second-order actuators | field arithmetic |
| C89 | `isNear` and the retry loop of the IK solver | induction over trials |
| C90 | fixed-base robot systems | list blocks |
| C91 | initial guesses of `FixBaseNLOC` | induction over the loop |
| C92 | end-effector forces | fold |
| C93 | symplectic robot systems | list blocks |
| C94 | statistics of the MPC time keeper | invariant over histories |
| C95 | system models of the filters | direct |
| C96 | `SteadyStateKalmanFilter::update` | duality with the Riccati iteration of C41 |
| C97 | ownership of the horizon strategy | invariant over histories on a heap |
| C98 | state prediction in MPC | iteration of the forward step |
| C99 | post-truncation of MPC policies | from C30 |
| C100 | look-up of cost terms | list search |
| C101 | box constraints of `LQOCProblem` | loop invariants, index arithmetic |
| C102 | linearised constraints of the subproblem | stage induction with the container's current point as state |
| C103 | LQ problem from a linear system and a quadratic cost | exact Taylor expansion |
| C104 | tables, pointers and masks of `HPIPMInterface` on a heap of problem arrays | invariant over `setProblem` calls |
| C105 | constraint error of a trajectory | sums of absolute values |
| C106 | LQ approximation, solution and full step of all algorithms | exactness on affine-quadratic problems by C38 and C54 |
| C107 | cost evaluators of multiple shooting | derivative of the composed cost in every direction |
| C108 | policy after an MPC iteration | direct |
| C109 | first-stage feedback of the HPIPM interface | completion of the square |
| C110 | `OperationalJacobianBase` with its caches, Eigen's LDLT as a congruence | generalised inverse of a Gram matrix |
| C111 | the same, along a differentiable motion | product rule for matrices; witness `[1, t]` |
| C112 | the same, all sequences of queries | invariant on flags and cached matrices |
| C113 | `OperationalModel`, `OperationalModelBase` | algebra of the weighted inverse |
| C114 | `ProjectedDynamics` forward, with the library's own LDLT solver | pivots of the KKT matrix are non-zero (C22), uniqueness |
| C115 | `ProjectedDynamics` inverse | Penrose conditions of the truncated SVD, minimum norm |
| C116 | `FrameJacobian`, end-effector functions of `Kinematics` | calculus of rotations and cross products |
| C117 | `ConstraintJacobian`, rows assembled by `ProjectedDynamics` | induction on the joint chain, C114, C116 |
| C118 | `rolloutSingleShot` NaN tests | loop invariant of the roll-out; terminal state is not tested |
| C119 | continuous and discrete system interfaces as state machines over discretisers and sensitivity objects; linear systems on a heap | coupling invariant with the requested configuration, induction over call sequences |
| C120 | the same interface with the integrators and sensitivities of C15, C19, C20 plugged in | C119 combined with the derivative theorems C19, C20 |
| C121 | kinematics class, link and end-effector look-up tables, force mapping; generated transforms are parameters | virtual work for all rigid motions determines the wrench uniquely |
| C122 | every function of robcogen_commons.h and internals.h, entry by entry | bodies as point masses; blocks of 6x6 matrices; decomposition of rotated tensors into rank-two, scalar and skew parts |
| C123 | every method of InertiaMatrixDense, entry by entry | the same specification; parallel-axis identity for sums of point masses |
| C124 | transforms, inertia parameters, `fd`, `id` and the robot object with its scratch members of the three fixed-base robots, written by `tools/gen_robots.py` from the generated headers statement by statement | invariant of the object over any history; equality with a recursive articulated-body algorithm over a list of links; induction over the list |
| C125 | the same for HyQ and QuadrotorWithLoad (`fd`, `id`, `id_fully_actuated`) | the same; the articulated inertia of the base is positive definite, hence invertible; for QuadrotorWithLoad the pivots are computed and the inertia matrix has no kernel |
| C126 | `C_terms`, `G_terms`, their fully actuated versions and `JSIM::update` of all five robots | induction over the list of links: Newton-Euler recursion against composite inertias |
| C127 | `JSIM::update` of all five robots | symmetric entry by entry; positive by the kinetic energy; negation with a witness for QuadrotorWithLoad |
| C128 | `JSIM::update` of all five robots | induction over the list of links |
| C129 | `computeL`, `computeLInverse`, `computeInverse` of all five robots as lists of assignments run on arrays of real numbers; index outside the matrix is undefined behaviour | symbolic bookkeeping of the rounds of the elimination, for any matrix size; negation for the two floating-base robots |
| C130 | every assignment of all classes in `transforms.impl.h` of five robots, as expressions in sines and cosines of joint positions; the poses in the `.kindsl` descriptions and in the URDF of the HyQ | normal form of polynomials in sines and cosines modulo s²+c²=1, proved sound and evaluated by the kernel; rules for composition and inversion of poses |
| C131 | every assignment of all classes in `jacobians.impl.h` | symbolic differentiation, proved sound, for the rows of the velocity of the origin; the rate of rotation of a chain of frames by induction for the angular rows |
| C132 | the numbers in `inertia_properties.impl.h` (already modelled for C124), in the `.kindsl` descriptions and in the URDF of the HyQ | point masses with the described moments; change of frame of tensors; rational arithmetic evaluated by the kernel |
| C133 | the look-up functions by number of `robcogenHelpers.h` and `RobCoGenContainer.h`, and the macros of five robots | from C130, by matching the entries of the look-up with frames and joints; negation for link 0 and for the link of one end effector |
| C134 | `getJacobianBaseEEbyId`, `getEEVelocityInBase`, `getEEVelocityInWorld`, `getEEPositionInWorld` on top of the look-ups | from C131 and C116: sum over a block of columns, uniqueness of the path of joints to a frame |
| C135 | the generated inverse dynamics (as for C124, C126) with and without external forces | induction along the branches: the force passed to a link has the same power on it as the sum over the links that hang on it |
| C136 | the generated inverse and forward dynamics and the inertia matrix along motions | every joint turns its link about a fixed axis, so transforms can be differentiated; induction along the branches for kinetic and potential energy; C124, C125, C128 |
| C137 | RbdLinearizer (control Jacobian, selection matrix) over the systems of four robots | difference of inverse dynamics from C126 and C135 (external forces act by virtual work), C124/C125, positive definite inertia matrix from C127; invariant of the untouched upper rows |
| C138 | RbdLinearizer (state Jacobian, generated blocks), SystemLinearizer over numerical differentiation, floating- and fixed-base systems | derivatives of products of elementary rotations; finite differences are exact for rows that are affine in an entry |
| C139 | FloatingBaseFDSystem, RBDAcceleration, RigidBodyPose rotations and gravity, Dynamics wrappers | derivative of the rotation matrix along Euler angles and quaternions; energy by C136 |
| C140 | Dynamics wrappers over the generated algorithms of HyQ | C125 both ways; the uninitialised argument is a free variable of the model |
| C141 | copy constructor of FloatingBaseFDSystem | case distinction on the contact model pointer |
| C142 | Ellipsoid and ObstacleConstraint; the obstacle is an object in a heap shared with the caller | sum of squares over the axes; derivative of the quadratic form; counterexamples to the documentation |
| C143 | Plane, PlaneEstimator with the QR solution as parameter | least squares over all planes; existence of the solution by projection |
| C144 | TermTaskspaceGeometricJacobian over the look-ups of CT.Lookup; Eigen's conversions as parameters with a contract | quaternion algebra, derivative of the squared angle by arccos and a quadratic bound at zero, C134 for the velocities; inverted pendulum as counterexample |
| C145 | TermTaskspacePose, TermTaskspacePosition, Hessian and references of the geometric term | Frobenius distance of rotations from the identity; C134 |
| C146 | IKCostEvaluator | C144, C145; index arithmetic on the lists |
| C147 | InfiniteHorizonLQRwithInverseDynamics on top of the models of LQR::compute and of fixed base systems | Riccati solution as Lyapunov function, linearisation error absorbed near the set point; closed form of the pendulum's generated dynamics |
| C148 | JacobiSingularity with Eigen's singular value decomposition as parameter | Pythagoras for the residual and in the row space; determinant of the product; sums over singular directions |
| C149 | IDControllerFB on top of the pose model and projected inverse dynamics | quaternion algebra and uniqueness of Euler angles; derivative of the energy; round trip of C115 |
| C150 | DerivativesCppadJIT as an object whose compiled model is fixed at compilation; generated code is a parameter | invariant over all histories; Jacobian and Hessian by the specification of the generated code |
| C151 | CostFunctionAD: term lists, recorded functions, analytical part of C37 | histories reduced to the terms at the last initialisation; chain rule through the stacked point |
| C152, C153 | ConstraintContainerAD as objects in a heap, each with a function object bound to a container | invariant relating heap and an abstract list of objects; progress theorem for legal histories |
| C154 | OptConProblemBase with pointers to objects of the user in a store | induction over histories of setters; `verify` by cases |
| C155, C156 | parts of the problem kept by NLOCBackendBase, its system interfaces, DmsSolver and DmsProblem | invariant relating all copies to the contents handed over last, by induction over histories |
| C157, C158 | generated functions quadrotor_ode, A_quadrotor, B_quadrotor over the reals | Fréchet derivatives entry by entry; Newton and Euler equations along solutions with an orientation matrix of its own |
| C159, C160 | SwitchedLinearConstraintContainer with shared containers of the modes in a store | invariant relating store and switched containers to what was given, by induction over histories; frame invariants in both directions for copies |
| C161, C162 | ComputeFk of the HyA, solution objects of ikfast, wrappers of HyA and Irb4600, closest solution; ComputeIk as parameter | entry by entry as polynomials in sines and cosines; induction over the solutions, periodicity, uniqueness of the angle in one period; pigeonhole for the aligned axes |
| C163 | option tables of IPOPT and SNOPT, settings, configure, prepareWarmStart | invariant over histories; expected violations for string options and unused settings |
| C164 | optimisation variables, callbacks of IPOPT, solve; the solver as an arbitrary sequence of callbacks obeying the protocol of `new_x` | induction over callbacks and over histories of solves, on top of C44 |
| C165 | memory pool, arrays, callback and solve of the SNOPT adapter | invariant of the pool; dense matrices represented by pattern and values; expected violations for failures and warm starts |
| C166 | joint PID controller as a list of the PID controllers of C12/C13; controller of floating-base robots | simulation: the list is pointwise the run of the calls seen by each joint |
| C167 | a heap of controllers and systems holding references into it; histories of all calls | frame invariant: nobody else holds the controller of a copy; expected violation for discrete-time systems |
| C168 | constant, set-point and step controllers | direct |
| C169 | sparsity patterns, recorded functions, work areas, caches, the four linear systems with their copies as a heap; CppAD is a parameter assumed to return derivatives (`Lib.Faithful`: in the requested columns the pattern has to be right only) | invariant of every linear system along all histories; expected violations for time, initial cache and lifetime |
| C170 | generated source as a list of assignments to the array of a member | entries not assigned stay zero, by induction over the calls |
| C171 | the iteration and loop of C41 | value iteration: monotone and bounded, limit by polarisation, continuity of the inverse, uniqueness by dynamic programming; stability from summable costs |
| C172 | the generated class with its matrices in memory; the pendulum of C124 with the actuator and system of C90 | closed form of the forward dynamics, derivative by the chain rule, invariant for the entries never written |
| C173 | selection of the stable blocks, reordering, final solve and gain of `LQR::compute`; Schur decomposition and reordering are parameters with their documented contracts | no imaginary eigenvalues, isotropy of the stable subspace by Lyapunov integrals, dimension count, completion of squares along motions |
| C174 | Newton iteration for the sign of the Hamiltonian with Eigen's `isApprox`, final overdetermined solve with full pivoting (contract of the library), gain of `LQR::compute` | existence of the stabilising solution by policy iteration; block diagonalisation of the Hamiltonian; Cayley transform for convergence; bounded inverse of the pivot rows; Lyapunov perturbation for stability; rational counterexample for the built-in tolerance |
| C175 | `NLOptConSolver::solve` over `runIteration` of single and multiple shooting with initial guess, first roll-out, arbitrary linear-quadratic step, line search and refreshed errors (serial backend), on the roll-out and line-search models of C54/C55 | invariant over the loop: stored trajectory feasible, recorded defects are the true ones while the loop goes on, errors fresh after the first iteration; transitivity of the merit comparison; evaluated counterexample for the stale errors |
| C176 | one iteration of iLQR/single shooting: linear-quadratic approximation (C106), Riccati sweep (C38), `extractSolution` and line search (C55) composed; specification is the cost as a function of the controls alone through `simulate`, with mathlib's derivative | the quadratic model has the true directional derivative at zero (adjoint-free: derivative of the roll-out follows the linearised dynamics); optimality of the Riccati solution turns the model's slope into minus twice its decrease; derivative of the candidate's cost in the step size; evaluated counterexample for the Armijo rule |
| C177 | one iteration of any of the algorithms with gaps: as C176 plus the `l1` norm of the defects and the shot-wise roll-outs of the candidates | derivative of states, controls and gaps of the candidates in the step size (gaps shrink like `1 - t`), majorant of the merit with slope `slope - rho * gap`; adjoint identity and optimality along scaled controls bound the slope by costates times gaps; evaluated counterexample for the default weight |
| C178 | `replaceAll`, `replaceOnce`, the two-file writers of derivatives and of continuous and discrete linear systems, the shipped templates as character lists | split of a text into identifiers, `find`/`replace` act on whole placeholders by induction over the text; kernel-evaluated separation of the shipped templates; evaluated counterexamples |
| C179 | property tree, `loadMatrixCF`, `loadScalarCF`, `loadTimeActivation`, the five loadable terms, the do-while loop of `loadFromConfigFile`, evaluation of the loaded sums | induction over the terms with the loaded sums as invariant; injective term keys bound the passes; evaluated files for the violations |
| C180 | dotted paths, `get` with and without default, `load` of the line search, linear-quadratic solver and solver settings with their try blocks and exits, `parametersOk` | dotted path equals list of keys by induction over characters and sections; each block by cases on the presence of its entries; explicit files for the violations |
| C181 | `loadScalar`, `loadMatrix`, `load` of the four estimator settings | path lemma of C180 with keys made of digits; explicit files for the violations |
| C182 | `prepareMPCIteration`, `finishMPCIteration`, `setInitialGuess`, `changeInitialState`, `reset` on the lists of the backend, over the models of C54 (roll-out), C106 (approximation), C38/C39 (Riccati sweep), C101 (boxes) | invariant of the roll-out carried over the replacement of the first state; approximations agree on the stages they read; two-phase approximation and sweep equal the whole ones; induction over the calls; explicit cases for the violations |
| C183 | the workers of C56 with the arrays they share: each assignment of `rolloutSingleShot`, `computeSingleDefect`, `executeLQApproximation` is one move, interleaved with all others | every address belongs to one index or to none; work on an index writes only its own addresses and depends only on its own and on those of none; invariant over all interleavings: each index is where it would be alone; one thread alone gives the serial functions (induction over the loop) |
| C184 | `load` and `parametersOk` of the settings of multiple shooting, its NLP solvers and generated derivatives on the tree of C180; constructor, `configure` and `solve` of `DmsSolver` as far as they depend on settings, on the problem of C52 and the option tables of C163 | each load is rewritten into a chain of entries of sections; equivalence for success; options by evaluation of the table; failures by computing the constructor for all settings of the kind |
| C185 | the program of `IKNLP` with its joint limit constraints over the NLP container of C44/C81 and the IPOPT adapter of C164, the pointer of the evaluator to the variables of a problem, the retry loop of `IKNLPSolverIpopt`, the targets of the evaluator; IPOPT, the random numbers and the validation (C89) are parameters | invariant over histories of calls for the pointer and the guess; induction over callbacks for the answers; induction over trials for the results; derivative of the cost from C146; witnesses for the shared evaluator, the ignored status and the overwritten guess |
| C186 | `QuadrotorWithLoadFDSystem`: mapping of the control to a wrench on the body, joint damping, conversion of the state vectors, over the generated forward dynamics of C125 | reduction to the systems of C139; energy from C136; response from C125 and C126; hover from free fall plus response; products with the inertia matrix from an explicit kinetic energy; witness for the response against the thrust |
| C187 | `TermTaskspacePoseCG`: parameter vector and its segments, constructors, recording and compilation (on the model of C150), evaluation, derivatives, references, copies, `loadConfigFile` (on the readers of C179); the function that `setStateFromVector` resolves to is explicit | invariant over histories: the compiled function is the cost in all parameters; smoothness of the pose by induction along the chain of frames; chain rule for segments of a vector; uniqueness of derivatives for the control; witnesses |
| C188 | `FixBaseNLOC`, `FloatingBaseNLOCContactModel`: preparation of guesses (on the model of C91), calls of the solver (on the buffers of C60) with the state left by an exception, results with the lifetime of the object referred to | from the specification of C60 and C91, for arbitrary previous buffers; witnesses for all states |
| C189 | `RKnDerivatives`: the loops of the three computations for each integration type, the histories kept, the call sequence, `exit(0)` as an outcome | induction over the steps with the chain rule (HasFDerivAt) against a separate definition of the two schemes; spline derivatives from C48; witnesses for the failures |
| C190 | the inertia constants of all links as the generated code fills them in | second moments about the centre of mass are non-negative in every direction (necessary, for any finite distribution of non-negative masses) and a factorisation yields six masses that have the inertia (sufficient); the constants are decided with exact rationals |
| C191 | `getWholeBodyCOM` of the five robots with the transforms it updates and multiplies and the constants of the links | the homogeneous transforms compose to the pose of the link (C130); masses and centres of mass follow from the spatial inertias for every distribution of masses |
| C192 | `ProjectedFDSystem` with the terms of the projected dynamics as functions of the state vector | the state moves as its velocities and accelerations say (as in C139; the quaternion keeps its norm); contact points do not accelerate (C114, C117), so their velocity is constant and their position affine in time |
| C193 | both generated Jacobians of the feet of HyQ statement by statement (`lN` is line `N`); `hyqForwardKinematics` with the lookups and generated transforms of HyQ | derivative of position and velocity of a foot along any curve of states (product rule for the quaternion matrix, leg and cross product); every entry of both Jacobians equals its column by `ring`, with the quaternion, foot and velocity as intermediate results |
| C194 | `generateHessianSource` with its choice of names, the generated class with its members, and the shipped Hessian of HyA statement by statement | expressions with renamed variables have the same value when the names are those of the inputs and weights, which is so for equal numbers; elements never assigned stay zero; otherwise a square function as counterexample; an access outside of a vector makes the run undefined wherever it is |
| C195 | `SystemLinearizer` and `DiscreteSystemLinearizer` with the objects they point to, on the model of the numerical linearizer (C23) | invariant over all histories that relates the objects to a view with one system per linearizer; rows replaced for second-order systems are shown equal to their difference quotients |
| C196 | first half of `HyQForwardZero::forwardZero`, statement by statement, and `HyQContactModelForwardZeroSystem` on the model of the robot state (C141); the accelerations are a parameter | derivative of the rotation matrix along the returned rates; quaternion products of half angles rewritten to the rotation matrix |
| C197 | choice and tolerances of steppers in `Integrator`, `StepperBase`, `SteppersODEInt.h`; the vector operators of `eigenIntegration.h` in the error measure of boost odeint | invariant over all histories that the class of the stepper depends on the type chosen last only; induction over the components for the norm; negations with witnesses |
| C198 | integrators with identity: the objects to which the functions stored in `Integrator` and `Observer` refer, copying member by member, recording with the loop of `SteppersCT.h` | invariant over all programs that relates the objects to the integrators made, their origin and whether they live; induction over the steps |
| C199 | systems, system models and controllers with identity: the controller slot of a shared system, the constant controllers of `CTSystemModel`, one step of a scheme that is a parameter | invariant over all programs: which controller governs a system and which control it keeps |
| C200 | the objects of a program with the members of `LinearFunctions.h`; `swap` of two of them, possibly the same | induction over the sequence of calls against the product of transpositions |
| C201 | the summary record, the iteration counter and the weights of the backend; events complete or fail an iteration, restart or configure the solver; what an iteration finds is an input | induction over the events against counts of events |

<!-- generated by tools/gen_design.py -->

## Parts of the code that are modelled

Per model file, the files of the code it cites. Inside these, exactly the functions named in the comments of the
definitions are modelled; everything else in `/repo` is not.

* `ADLinearizer.lean`: ADCodegenLinearizer.h, AutoDiffLinearizer.h, CGHelpers.h, DerivativesCppadCG.h, DiscreteSystemLinearizerAD.h, DiscreteSystemLinearizerADCG.h, DynamicsLinearizerAD.h, DynamicsLinearizerADBase.h, DynamicsLinearizerADCG.h, Jacobian.tpl.cpp, Jacobian.tpl.h, LinearSystem.tpl.cpp, LinearSystem.tpl.h, SparsityPattern.h
* `Activation.lean`: BarrierActivation.hpp, LinearActivation.hpp, PeriodicActivation.hpp, RBFGaussActivation.h, SingleActivation.hpp
* `Actuator.lean`: ActuatorDynamics.h, ActuatorDynamicsSymplectic.h, FixBaseAccSystem.h, FixBaseFDSystem.h, FixBaseFDSystemSymplectic.h, FixBaseNLOC-impl.h, FixBaseSystemBase.h, FixBaseVelSystem.h, SEADynamicsFirstOrder-impl.h, SecondOrderActuatorDynamics-impl.h, SymplecticSystem.h
* `AdaptiveIntegration.lean`: Integrator-impl.h, Integrator.h, StepperBase.h, SteppersCT.h, SteppersODEInt.h, SteppersODEIntDefinitions.h, eigenIntegration.h
* `Arrays.lean`: DiscreteArray.h, TimeArray.h, linspace.h
* `Articulated.lean`: DoubleTrait.h, InertiaMatrix.h, forward_dynamics.impl.h, inverse_dynamics.impl.h, jsim.impl.h, rbd.h
* `Care.lean`: CARE-impl.hpp, CARE.hpp, LQR-impl.hpp
* `CodeGen.lean`: ConstraintContainerAD-impl.h, CostFunction-impl.hpp, CostFunctionAD-impl.hpp, CostFunctionQuadratic-impl.hpp, DerivativesCppadJIT-impl.h, DerivativesCppadJIT.h, DerivativesCppadSettings.h, TermLinear-impl.hpp, utilities.hpp
* `CodeText.lean`: ADCodegenLinearizer.h, CGHelpers.h, DerivativesCppadCG.h, DiscreteSystemLinearizerADCG.h, _A.cpp, _B.cpp
* `ConstraintAD.lean`: ConstraintContainerAD-impl.h, ConstraintContainerBase-impl.h, DerivativesCppadJIT-impl.h, LinearConstraintContainer-impl.h
* `Constraints.lean`: BoxConstraintBase-impl.h, ConstraintBase-impl.h, ConstraintBase.h, ConstraintContainerAnalytical-impl.h, ConstraintContainerBase-impl.h, ControlInputConstraint-impl.h, LinearConstraintContainer-impl.h, StateConstraint-impl.h, TerminalConstraint-impl.h
* `Contact.lean`: EEContactModel.h
* `ContactDynamics.lean`: ProjectedDynamics.h
* `ControlledSystem.lean`: ConstantController-impl.h, ConstantStateFeedbackController.h, ControlledSystem.h, Controller.h, DiscreteControlledSystem.h, DiscreteController.h, JointPositionPIDController-impl.h, JointPositionPIDController.h, JointState.h, PIDController.h, StepInputController.h, WholeBodyController-impl.h
* `Cost.lean`: CostFunction-impl.hpp, CostFunction.hpp, CostFunctionQuadratic-impl.hpp, CostFunctionQuadratic.hpp, CostFunctionQuadraticSimple-impl.hpp, TermBase-impl.hpp, TermBase.hpp, TermLinear-impl.hpp, TermLinear.hpp, TermMixed-impl.hpp, TermMixed.hpp, TermQuadMult-impl.hpp, TermQuadMult.hpp, TermQuadTracking-impl.hpp, TermQuadTracking.hpp, TermQuadratic-impl.hpp, TermQuadratic.hpp, TermSmoothAbs-impl.hpp, TermSmoothAbs.hpp, TermStateBarrier-impl.hpp
* `CostLoad.lean`: ActivationBase.hpp, Activations.h, BarrierActivation.hpp, CostFunctionAnalytical-impl.hpp, CostFunctionQuadratic-impl.hpp, LinearActivation.hpp, PeriodicActivation.hpp, RBFGaussActivation.h, SingleActivation.hpp, TermBase-impl.hpp, TermLinear-impl.hpp, TermLoadMacros.hpp, TermMixed-impl.hpp, TermQuadMult-impl.hpp, TermQuadratic-impl.hpp, TermSmoothAbs-impl.hpp, utilities.hpp
* `CppadParallel.lean`: CppadParallel.h
* `Discretizer.lean`: SystemDiscretizer-impl.h
* `DmsConstraints.lean`: ConstraintDiscretizer.h, ContinuityConstraint.h, CostEvaluatorSimple.h, InitStateConstraint.h
* `DmsCost.lean`: CostEvaluatorFull.h, CostEvaluatorSimple.h
* `DmsProblem.lean`: DmsProblem.h, DmsSettings.h, DmsSolver.h, InitStateConstraint.h, OptConSolver.h, OptVector.h, SensitivityIntegratorCT.h, ShotContainer.h
* `DmsSettingsLoad.lean`: DerivativesCppadSettings.h, DmsProblem.h, DmsSettings.h, DmsSolver.h, IpoptSolver-impl.h, NlpSolverSettings.h, ShotContainer.h, SnoptSolver.cpp
* `DmsShot.lean`: DmsProblem.h, Nlp.h, OptVector.h, OptVectorDms-impl.h, SensitivityIntegratorCT.h, ShotContainer.h, SteppersCT.h
* `DmsVector.lean`: LinearSpliner.h, OptVector.h, OptVectorDms-impl.h, TimeGrid.h, ZeroOrderHoldSpliner.h
* `Fhdtlqr.lean`: FHDTLQR-impl.hpp
* `Filter.lean`: CTSystemModel-impl.h, EstimatorBase.h, ExtendedKalmanFilter-impl.h, ExtendedKalmanFilter.h, InputDisturbedSystem-impl.h, LTIMeasurementModel-impl.h, LinearMeasurementModel.h, MeasurementModelBase.h, SystemModelBase.h, UnscentedKalmanFilter-impl.h, UnscentedKalmanFilter.h, s.h, s.h.h
* `FilterModels.lean`: ControlledSystem.h, DisturbedSystemController-impl.h, InputDisturbedSystem-impl.h, SteadyStateKalmanFilter-impl.h, SteadyStateKalmanFilter.h, SystemModelBase.h, s.h, s.h.h
* `FilterSharing.lean`: CTSystemModel-impl.h, ConstantController-impl.h, ControlledSystem.h
* `FloatingSystem.lean`: Dynamics.h, FloatingBaseFDSystem.h, RBDAcceleration.h, RBDState.h, RigidBodyAcceleration.h, RigidBodyPose.h, RigidBodyState.h, SymplecticSystem.h
* `ForceMapping.lean`: EndEffector-impl.h, Kinematics.h, RigidBodyPose.h, RobCoGenContainer.h, SpatialForceVector.h, robcogenHelpers.h
* `FrameJac.lean`: ConstraintJacobian.h, FrameJacobian.h, Kinematics.h, ProjectedDynamics.h
* `GenKin.lean`: jacobians.impl.h, transforms.impl.h
* `Geometry.lean`: Ellipsoid.h, ObstacleConstraint-impl.h, ObstacleConstraint.h, Plane.h, PlaneEstimator.h
* `HessianSource.lean`: CGHelpers.h, DerivativesCppadCG.h, Hessian.tpl.cpp, Hessian.tpl.h
* `Hpipm.lean`: HPIPMInterface-impl.hpp, LQOCProblem-impl.hpp
* `HpipmFeedback.lean`: HPIPMInterface-impl.hpp
* `IK.lean`: IKNLPSolverIpopt.h, InverseKinematicsBase.h, RigidBodyPose.h
* `IdFb.lean`: IDControllerFB.h, ProjectedDynamics.h, RBDAcceleration.h, RigidBodyVelocities.h
* `IkFast.lean`: HyAInverseKinematics.h, HyAJointLimits.h, InverseKinematicsBase.h, Irb4600InverseKinematics.h, RigidBodyPose.h, ikfast.h, transform6d.cpp
* `IkProblem.lean`: DiscreteConstraintContainerBase.h, IKConstraintContainer.h, IKCostEvaluator.h, IKNLP.h, IKNLPSolverIpopt.h, JointLimitConstraints.h, Nlp.h
* `Integration.lean`: Integrator-impl.h, KillIntegrationEventHandler.h, MaxStepsEventHandler.h, Observer-impl.h, SteppersCT.h
* `IntegratorCopy.lean`: Integrator-impl.h, Integrator.h, Observer-impl.h, SteppersCT.h
* `Interpolation.lean`: DiscreteArray.h, DiscreteTrajectoryBase.h, Interpolation.h
* `Inverses.lean`: Inverses.h
* `InvertedPendulumLinearized.lean`: InvertedPendulumWithActuatorCodeGen.cpp
* `Jacobi.lean`: JacobiSingularity.h
* `JointState.lean`: JointState.h
* `JsimFactor.lean`: jsim.h, jsim.impl.h
* `LTI.lean`: DiscreteLTISystem.h, LTISystem.h
* `LinearFunctionSwap.lean`: LinearFunctions.h
* `Lookup.lean`: HyA.h, Kinematics.h, RobCoGenContainer.h, robcogenHelpers.h
* `LqApprox.lean`: LQOCProblem-impl.hpp, MultipleShooting-impl.hpp, NLOCBackendBase-impl.hpp, NLOCBackendST-impl.hpp, NLOptConSettings.hpp
* `Lqoc.lean`: LQOCProblem-impl.hpp, NLOCBackendBase-impl.hpp, NLOCBackendST-impl.hpp
* `Lqr.lean`: CARE-impl.hpp, DARE-impl.hpp, DynamicRiccatiEquation.hpp, FHDTLQR-impl.hpp, LQR-impl.hpp
* `LqrId.lean`: CARE-impl.hpp, CARE.hpp, InfiniteHorizonLQRwithInverseDynamics.h, JointState.h, LQR-impl.hpp, LinearSystem.h
* `Mpc.lean`: MPC-impl.h, MpcSettings.h, MpcTimeHorizon-impl.h, MpcTimeKeeper.h, NLOCBackendBase-impl.hpp, Timer.h
* `MpcForward.lean`: MPC-impl.h, MpcSettings.h, MpcTimeHorizon-impl.h, MpcTimeHorizon.h, MpcTimeKeeper.h, PolicyHandler-impl.h, StateFeedbackPolicyHandler-impl.h, SteppersCT.h
* `NlocBuffers.lean`: NLOCBackendBase-impl.hpp, NLOptConSettings.hpp, NLOptConSolver-impl.hpp
* `NlocLineSearch.lean`: DiscreteArray.h, NLOCBackendBase-impl.hpp, NLOCBackendST-impl.hpp, NLOptConSettings.hpp
* `NlocNorm.lean`: NLOCBackendBase.hpp
* `NlocParallel.lean`: MultipleShooting-impl.hpp, NLOCBackendBase-impl.hpp, NLOCBackendMP-impl.hpp, NLOCBackendMP.hpp
* `NlocParallelData.lean`: NLOCBackendBase-impl.hpp, NLOCBackendMP-impl.hpp
* `NlocParallelSearch.lean`: NLOCBackendBase-impl.hpp, NLOCBackendMP-impl.hpp
* `NlocRollout.lean`: NLOCBackendBase-impl.hpp, NLOCBackendST-impl.hpp, NLOptConSettings.hpp
* `NlocSolve.lean`: MultipleShooting-impl.hpp, NLOCBackendBase-impl.hpp, NLOCBackendST-impl.hpp, NLOptConSolver-impl.hpp, SingleShooting-impl.hpp
* `NlocSummary.lean`: MultipleShooting-impl.hpp, NLOCBackendBase-impl.hpp, NLOCBackendBase.hpp, NLOCResults.hpp, SingleShooting-impl.hpp
* `Nlp.lean`: DiscreteConstraintBase.h, DiscreteConstraintContainerBase.h, Nlp.h
* `NlpSolver.lean`: IpoptSolver-impl.h, IpoptSolver.h, Nlp.h, NlpSolver.h, NlpSolverSettings.h, OptVector.h, SnoptSolver.cpp, SnoptSolver.h
* `NumDiff.lean`: DerivativesNumDiff.h, DynamicsLinearizerNumDiff.h
* `OpJacobian.lean`: OperationalJacobianBase.h, ProjectedDynamics.h
* `OpModel.lean`: OperationalModel.h, OperationalModelBase.h
* `OptCon.lean`: DiscreteSystemLinearizer.h, DmsProblem.h, DmsSolver.h, LinearConstraintContainer-impl.h, NLOCBackendBase-impl.hpp, NLOptConSolver-impl.hpp, NLOptConSolver.hpp, OptConProblemBase-impl.h, OptConProblemBase.h, OptConSolver.h, OptconContinuousSystemInterface-impl.h, OptconDiscreteSystemInterface-impl.h, SystemLinearizer.h
* `PID.lean`: PIDController-impl.h, PIDController.h
* `PointToPoint.lean`: SimpleArmTrajectoryGenerator.h, SingleDOFTrajectoryGenerator.h
* `PolicyHandler.lean`: DiscreteTrajectoryBase.h, StateFeedbackPolicyHandler-impl.h
* `ProjectedSystem.lean`: Dynamics.h, ProjectedDynamics.h, ProjectedFDSystem.h, RBDState.h
* `Quadrotor.lean`: A_quadrotor.cpp, B_quadrotor.cpp, QuadrotorLinear.hpp, quadModelParameters.hpp, quadrotor_ode.cpp
* `Quantization.lean`: QuantizationNoise.h
* `RbdLinearizer.lean`: RbdLinearizer.h, SelectionMatrix-impl.h, SystemLinearizer.h
* `Riccati.lean`: GNRiccatiSolver-impl.hpp, GNRiccatiSolver.hpp, LQOCProblem-impl.hpp, LQOCProblem.hpp, LQOCSolver.hpp, NLOCBackendBase-impl.hpp
* `RknDeriv.lean`: DmsSettings.h, RKnDerivatives.h
* `RobotLookups.lean`: DoubleInvertedPendulum.h, HyA.h, HyQ.h, InvertedPendulum.h, QuadrotorWithLoad.h
* `RobotNloc.lean`: DiscreteTrajectoryBase.h, FixBaseNLOC-impl.h, FloatingBaseNLOCContactModel-impl.h, FloatingBaseNLOCContactModel.h, NLOCBackendBase-impl.hpp, NLOCBackendBase.hpp, NLOptConSolver-impl.hpp, NLOptConSolver.hpp, StateFeedbackController-impl.h
* `RobotState.lean`: FixBaseRobotState.h, FloatingBaseRobotState.h, JointState.h, RBDState.h, RigidBodyPose.h
* `DoubleInvertedPendulum.lean`: RobCoGenContainer.h, declarations.h, forward_dynamics.h, forward_dynamics.impl.h, inertia_properties.impl.h, inverse_dynamics.h, inverse_dynamics.impl.h, jsim.impl.h, transforms.impl.h
* `DoubleInvertedPendulumKin.lean`: declarations.h, jacobians.impl.h, transforms.impl.h
* `Factor.lean`: jsim.impl.h
* `HyA.lean`: RobCoGenContainer.h, declarations.h, forward_dynamics.h, forward_dynamics.impl.h, inertia_properties.impl.h, inverse_dynamics.h, inverse_dynamics.impl.h, jsim.impl.h, transforms.impl.h
* `HyAHessian.lean`: HyAInverseDynHessian.cpp
* `HyAKin.lean`: declarations.h, jacobians.impl.h, transforms.impl.h
* `HyQ.lean`: RobCoGenContainer.h, declarations.h, forward_dynamics.h, forward_dynamics.impl.h, inertia_properties.impl.h, inverse_dynamics.h, inverse_dynamics.impl.h, jsim.impl.h, transforms.impl.h
* `HyQFoot.lean`: RBDState.h, helperFunctions.h
* `HyQFootJacForward.lean`: HyQForwardKinJacForward.cpp, HyQForwardKinJacForward.h
* `HyQFootJacReverse.lean`: HyQForwardKinJacReverse.cpp, HyQForwardKinJacReverse.h
* `HyQForwardZero.lean`: HyQContactModelForwardZeroSystem.h, HyQForwardZero.cpp, SymplecticSystem.h
* `HyQKin.lean`: declarations.h, jacobians.impl.h, transforms.impl.h
* `InvertedPendulum.lean`: RobCoGenContainer.h, declarations.h, forward_dynamics.h, forward_dynamics.impl.h, inertia_properties.impl.h, inverse_dynamics.h, inverse_dynamics.impl.h, jsim.impl.h, transforms.impl.h
* `InvertedPendulumKin.lean`: declarations.h, jacobians.impl.h, transforms.impl.h
* `QuadrotorWithLoad.lean`: RobCoGenContainer.h, declarations.h, forward_dynamics.h, forward_dynamics.impl.h, inertia_properties.impl.h, inverse_dynamics.h, inverse_dynamics.impl.h, jsim.impl.h, transforms.impl.h
* `QuadrotorWithLoadKin.lean`: declarations.h, jacobians.impl.h, transforms.impl.h
* `QuadrotorWithLoadSystem.lean`: Dynamics.h, QuadrotorWithLoadFDSystem.h
* `Systems.lean`: Dynamics.h
* `WholeBody.lean`: inertia_properties.h, inertia_properties.impl.h, miscellaneous.cpp, utils.h
* `Rti.lean`: MPC-impl.h, MultipleShooting-impl.hpp, NLOCBackendBase-impl.hpp, NLOCBackendST-impl.hpp
* `SecondOrder.lean`: SecondOrderSystem.h
* `Sensitivity.lean`: ConstantController-impl.h, Integrator-impl.h, IntegratorSymplectic-impl.h, LinearSystem.h, SensitivityApproximation.h, SensitivityIntegrator.h, SteppersCT.h, SubstepRecorder.h, SymplecticSystem.h
* `SettingsLoad.lean`: FilterSettings.h, InfoFileParser.h, Integrator.h, NLOCBackendBase-impl.hpp, NLOptConSettings.hpp
* `Simulation.lean`: ControlSimulator.h
* `SolverSensitivity.lean`: Integrator.h, SensitivityApproximation.h, SensitivityIntegrator.h
* `Spatial.lean`: InertiaMatrix.h, internals.h, rbd.h, robcogen_commons.h, utils.h
* `StateFeedback.lean`: StateFeedbackController-impl.h, StateFeedbackController.h
* `SwitchedConstraint.lean`: ConstraintContainerAnalytical-impl.h, ConstraintContainerBase-impl.h, ConstraintContainerBase.h, LinearConstraintContainer-impl.h, LinearConstraintContainer.h, SwitchedLinearConstraintContainer-impl.h, SwitchedLinearConstraintContainer.h, Switching.h
* `Switching.lean`: ControlledSystem.h, DiscreteControlledSystem.h, DiscreteLinearSystem.h, LinearSystem.h, SwitchedControlledSystem.h, SwitchedDiscreteControlledSystem.h, SwitchedDiscreteLinearSystem.h, SwitchedLinearSystem.h, Switching.h
* `Symplectic.lean`: IntegratorSymplectic-impl.h, SymplecticSystem.h
* `SystemInterface.lean`: Integrator.h, NLOCBackendBase-impl.hpp, NLOptConSettings.hpp, OptConSolver.h, OptconContinuousSystemInterface-impl.h, OptconDiscreteSystemInterface-impl.h, OptconSystemInterface.h, Sensitivity.h, SensitivityApproximation.h, SensitivityIntegrator.h, SystemDiscretizer-impl.h
* `SystemLinearizer.lean`: DiscreteSystemLinearizer.h, DynamicsLinearizerNumDiff.h, FixBaseFDSystemSymplectic.h, System.h, SystemLinearizer.h
* `Taskspace.lean`: IKCostEvaluator.h, RBDState.h, TermBase-impl.hpp, TermTaskspaceGeometricJacobian.hpp, TermTaskspacePose.hpp, TermTaskspacePosition.hpp
* `TaskspaceCG.lean`: DerivativesCppadJIT-impl.h, TermBase-impl.hpp, TermTaskspacePoseCG.hpp, utilities.hpp
* `Templates.lean`: DERIVATIVE_NAME.h, Derivatives.h, DiscreteLinearSystem.tpl.h, DiscreteLinearSystem.tplA.cpp, DiscreteLinearSystem.tplB.cpp, ForwardZero.tpl.cpp, ForwardZero.tpl.h, Hessian.tpl.cpp, Hessian.tpl.h, Jacobian.tpl.cpp, Jacobian.tpl.h, LINEAR_SYSTEM_NAME.h, LinearSystem.tpl.cpp, LinearSystem.tpl.h, core.h
* `Timer.lean`: ExternallyDrivenTimer.h

## Outcome per property

| id | status | what is proved, what is not |
|----|--------|-----------------------------|
| C01 | partial | Trajectory evaluation does not depend on earlier queries. Proved for every history in which the index of a time is never requested from an empty trajectory; C01_violated shows that such a request poisons the object. The index search itself is characterised outright. |
| C02 | proved | Interpolation reproduces samples, stays between neighbours and holds at the ends. All four regions, bounds for scalar data, exceptions on inconsistent data. |
| C03 | proved | Trajectory stamps and samples stay paired through every mutation. Refinement to a list of (stamp, sample) pairs for every defined history; calls whose precondition fails (pop_back on empty, erasing too much) are the undefined outcome. |
| C04 | proved | Shifting a trajectory in time shifts its values and nothing else. Holds for arbitrary (also unsorted) contents. |
| C05 | proved | Element-wise array arithmetic obeys vector-space laws and rejects size mismatch.  |
| C06 | proved | Uniform time arrays have the requested length, start, spacing and end. Over an arbitrary field of characteristic zero (no rounding). |
| C07 | proved | Phase sequences tile their time interval and look-ups return the active phase. Non-negative durations suffice. Querying the next switch event in the last phase is undefined behaviour (C07_switch_event_last_undefined). |
| C08 | proved | A switched system uses at every time exactly the subsystem scheduled for that time. Continuous, discrete, linear, discrete linear (matrices, next state and copies) and closed-loop versions; mode indices must be within the vector of subsystems. |
| C09 | partial | Externally driven timer reports elapsed external time. Proved for start ... stop sequences after any history and for untouched timers; C09_violated: stop without start reports the absolute time stamp (this is what MPC runs into, see C31). |
| C10 | partial | Time activations are windows: inside active, outside inactive. Single and linear windows in full; periodic windows for activations configured from a file. C10_violated: the value constructor leaves the end time uninitialised. |
| C11 | partial | Quantisation loses nothing in the long run. Accounting proved for every history without undefined behaviour; C11_violated: the table of remainders is never large enough for identifiers other than 0, nor after reset. Unbounded integers instead of int. |
| C12 | proved | PID commands never leave the saturation interval and the integrator never leaves its anti-windup bound. Real/rational arithmetic instead of floating point. |
| C13 | proved | Resetting a PID controller restores the behaviour of a fresh one.  |
| C14 | proved | State-feedback policies apply feed-forward plus gain times deviation and reject inconsistent updates. Over all histories of evaluations and updates; stages outside the discrete-time policy are undefined. |
| C15 | partial | Fixed-step integration performs exactly the requested steps on the requested grid. Grid, step count and composition in full; C15_violated: the built-in steppers record n states instead of n+1 (the initial state is never recorded). |
| C16 | proved | Euler and RK4 steppers are the textbook methods with their order. RK4: exact on quadratures up to degree 3 and equal to the degree-4 Taylor polynomial on linear systems, plus the defining formulas. Field arithmetic instead of floating point. |
| C17 | proved | Step limits and kill switches stop an integration at the promised step. The handlers are driven by the observer of the fixed-step loop. |
| C18 | proved | Symplectic stepping updates velocity with the new position and preserves phase-space volume. Semantics of boost::odeint symplectic_euler is part of the trusted base (the order of the two half updates). |
| C19 | partial | Discretised sensitivities are the derivative of the step they approximate. Forward and symplectic Euler in full for nonlinear time-varying systems; backward Euler for state-independent Jacobians; Tustin only up to a factor two of the step. Violations shown for backward Euler (Jacobian at the wrong end of the step) and Tustin (dt instead of dt/2). |
| C20 | partial | Integrated sensitivities equal the derivative of the discretised flow. Time-invariant nonlinear systems with any number of sub-steps, time-varying ones with one sub-step, symplectic stepping of linear systems. C20_violated: all sub-steps use the time of the first; C20_symplectic_violated: the recorder stores states after, not before, each symplectic step. |
| C21 | partial | Control simulation advances the plant by exactly one control period per control update. Proved when the simulation step divides the control step; C21_violated: otherwise the residual step has the length of the fraction rather than fraction times simulation step. |
| C22 | proved | LU and LDLT solvers return the solution of the linear system. Non-zero pivots are characterised by non-zero leading principal minors; positive definite matrices as corollary. Exact field arithmetic. |
| C23 | proved | Numerical differentiation is exact on the functions its scheme is exact for. Exact arithmetic; convergence over the reals. |
| C24 | partial | Second-order system equilibrium and parameters. Equilibrium, documented law and dissipation proved; the spring-mass-damper constructor obeys its law exactly when d = 0 or k m = 1 (C24_spring_partial), witness in C24_spring_violated. |
| C25 | partial | Controllability and observability matrices stack the Kalman blocks. Controllability proved outright. C25_observability_violated: for every n >= 2 the observability computation writes outside the matrix; only n = 1 works (C25_observability_partial, C25_observability_test_partial). |
| C26 | partial | Threads registered for parallel automatic differentiation get distinct numbers. Proved while the distinct threads are at most the configured number and their ids hash to distinct values; C26_violated: one thread more always shares number 0 with the first. |
| C27 | proved | MPC forward-integration window is ordered and inside the current horizon. For histories of prepare/finish/reset that do not start with finish, with a clock that never runs backwards and non-negative delay settings; the solver is represented by the horizon it reports. |
| C28 | partial | MPC horizon strategies keep their documented promises. Values, end report and monotonicity of all four modes proved; C28_remaining_violated: in fixed-final-time mode the time since the last solve is charged twice. |
| C29 | partial | A warm-started MPC policy has the requested number of stages on a uniform increasing grid. Samples and sizes in all cases, stamps when nothing is appended; C29_extension_violated: appended stages are all stamped dt (absolute instead of relative time). |
| C30 | proved | Truncating a policy front preserves the remaining behaviour.  |
| C31 | partial | The time stamp of a returned MPC policy is the state time stamp plus the predicted delay. Proved for external timing after the first iteration; C31_first_violated and C31_first_internal_violated: the first policy is stamped 2*x_ts (external) or x_ts plus the clock reading (defaults). |
| C32 | proved | Reported constraint violation is zero exactly on the feasible set.  |
| C33 | partial | Constraint containers evaluate all added terms, in order, at the current point. Evaluation, counts, bounds: all histories. C33_terminal_jacobian_violated: the terminal state Jacobians check the intermediate flag, so use before initialisation is not reported and up-to-date ones can be refused. |
| C34 | partial | Sparse and dense constraint Jacobians agree. Containers, box and terminal terms proved; default terms only for one row or one column. C34_default_violated: for two or more rows and columns values are column-major, the pattern row-major. |
| C35 | proved | Box constraints select the requested components and reject inconsistent bounds. The 0/1 and length assertions on the sparsity vector are preconditions. |
| C36 | proved | Reported cost gradients and Hessians are the derivatives of the reported cost. Fréchet derivatives, arbitrary weights; smooth abs needs a non-zero smoothing parameter. |
| C37 | partial | Cost functions sum their active terms and their derivatives consistently. Violated: the activation is applied twice to the value and once to the derivatives. Proved for activations with value 0 or 1; derivatives are those of the documented cost for every activation; terminal costs consistent. |
| C38 | proved | The Riccati solver returns the optimal feedback of the linear-quadratic problem. Optimality and uniqueness over all control sequences, cost-to-go at every stage >= 1 (the code does not compute it at stage 0), a version with hypotheses on the problem data only, and what is minimised when the Hessians are regularised. LLT solve and eigendecomposition are trusted to be exact. |
| C39 | partial | Splitting the Riccati sweep for real-time iterations does not change the solution. Equality of all arrays for every split point up to the number of stages, also when the data before the split change in between. Violated (undefined access) when there are more steps per shot than stages, which the settings check accepts. |
| C40 | proved | Solutions returned by the continuous-time Riccati solvers satisfy the Riccati equation. Sign-function solver: every iterate commutes with the Hamiltonian, so an exact final solve gives a solution of the CARE. Schur solver: from an invariant subspace. Also the HJB identity for the returned gain. The LAPACK Schur reordering and the LU solve are assumed as stated in the hypotheses. Existence, stability and optimality for the direct solver are C173. Convergence of the iterative solver is C174. |
| C41 | partial | Discrete Riccati iteration preserves symmetry and positive semi-definiteness and its fixed points give the optimal gain. The plain recursion is optimal. The robust recursion used by DARE and FHDTLQR is exactly the plain one for the weight R + eps I, so everything holds for that weight; proved not to hold for R itself (scalar witnesses). DARE returns its initial guess for tolerances above 1. Convergence of the iteration is C171. |
| C42 | proved | The extended Kalman filter keeps its covariance symmetric positive semi-definite. Invariant over arbitrary call sequences; minimum-variance gain and its uniqueness via the dual Riccati step. Needs non-degenerate measurement noise, as the code inverts the innovation covariance. |
| C43 | partial | Unscented transform is exact for affine maps. Weights, transform and prediction are exact for affine maps once computeWeights was called. Proved violations: no constructor and no call computes the weights, so a constructed filter reads uninitialised members; the correction ignores the process noise (sigma points are not redrawn). |
| C44 | proved | NLP constraint stacking keeps values, bounds, Jacobian and sparsity aligned. Stacking of values, bounds, Jacobian values and pattern for all lists of constraints that return what they report; index helpers. |
| C45 | proved | Decision-vector layout of multiple shooting is a bijection. Index map, block reads/writes and array guesses for every shape; unallocated xInit is a parameter. |
| C46 | partial | Linear initial guesses interpolate between the end points. Endpoints proved. Interpolation in between is refuted: the blend factor is an integer division, so every node but the last gets x0 (C46_violated). |
| C47 | proved | Shooting time grids tile the horizon. Uniform grids over every sequence of shot-count/horizon changes; segment updates telescoped. |
| C48 | proved | Control splines hit their nodes, are continuous, and report their exact derivatives. Values, node derivatives, time and duration derivatives of the linear spline and the hold. |
| C49 | proved | Continuity-constraint Jacobian triplets encode the shooting-gap derivative. Matrix denoted by the triplets, for both control parametrisations, plus the initial-state constraint. |
| C50 | partial | Discretised path constraints report as many Jacobian entries as they write. Proved when no general constraint depends on the input; refuted otherwise: setGeneralConstraints counts only entries by state, so values and pattern overrun vectors of the reported size (C50_violated). |
| C51 | partial | Cost quadrature weights integrate the constant function exactly. Zero-order hold proved. Piecewise linear refuted: computing the weights reads behind the grid for every grid (C51_linear_violated). |
| C52 | partial | Changing the initial state or horizon of a multiple-shooting problem takes effect. Construction with the horizon of the settings: constraint and shots right (within half a simulation step). Afterwards initial-state constraint and shots never change: C52_violated_initial, C52_violated_horizon hold for all call sequences. |
| C53 | partial | Cached shot integrations are never stale. Cached shots agree with a fresh problem for every sequence of updates through the solver interface and queries; three violations proved: before the first update, after writes that bypass the counter, after a counter reset. |
| C54 | proved | Multiple-shooting roll-outs satisfy the dynamics up to the reported defects. Exact arithmetic over an additive group; all shot lengths, any order of shots, single shooting as one shot. |
| C55 | partial | Accepted line-search steps decrease the merit and rejected searches change nothing. Violated: a rejected search clears the defects, the Armijo test accepts an unchanged merit, and constraint errors of the previous trajectory are used when the roll-out is aborted. Proved: first acceptable candidate is taken, accepted steps decrease the merit for the simple search, everything but the defects is kept on rejection. |
| C56 | partial | The parallel backend processes every stage exactly once per phase. For any number of workers and any interleaving (sequential consistency): if no worker is still busy with an earlier task when the phase starts, every index of the range is processed at most once, nothing outside it is, and when the main thread is released all indices are complete (C56_phase_partial, C56_single); the first phase after launch meets this (C56_first_ready). Violated otherwise: a stale worker from the previous phase lets two phases end without the LQ problem being computed (C56_violated); rolloutShots(K, K-1) wraps around (C56_violated_range). |
| C57 | partial | Serial and parallel line searches choose the same step. In every interleaving the parallel search reports a step iff the serial one does, the step was accepted, is not larger than the serial one, and the published data is that of this step (C57_choice_partial, C57_stable, C57_decided); equal to the serial choice with one worker (C57_single_worker) and whenever all earlier candidates are evaluated before the serial choice (C57_in_order_partial). Violated: a smaller step overwrites the accepted one (C57_violated); candidates of a finished search are published in the next one (C57_violated_stale). |
| C58 | partial | The main thread of the parallel backend always terminates its waits. With at least one worker and no lost notification no state is stuck and the main thread is released after a bounded number of moves (C58_terminates_partial, C58_search_partial). Violated: lost notifications in both directions (C58_violated_wakeup, C58_violated_completion, C58_violated_search), ranges that wrap around (C58_violated_range), maxIterations = 0 (C58_violated_search_zero). |
| C59 | partial | The solver's return value tells whether an improving solution was found. Violated: solve always returns true; without line search a worse cost is reported as better. Proved: number of iterations run and the direction from improvement to true. |
| C60 | proved | Horizon changes keep all solver buffers consistent. Any mix of accepted and rejected calls without reconfiguration (see C84 for configure). The reference and previous-state buffers may stay longer than the horizon; they are shown to be at least as long. |
| C61 | proved | Point-to-point joint trajectories respect limits and reach their targets at rest. All parts, plus that no motion within the limits is faster. Scalars are reals. |
| C62 | proved | Joint angles are wrapped into their interval without changing the configuration. Wrapping is stated for angles within the range in which the multiple of 2 pi fits an int (Near); C62_far_undefined shows that farther angles reach undefined behaviour of the conversion. |
| C63 | proved | Robot state vector conversions are lossless. For floating bases lossless in the representation stored; between representations up to the conversion of kindr, which is a parameter (C63_mixed). |
| C64 | partial | Contact forces vanish without contact and never pull when only springs act. Proved for active end effectors relative to the force law of the documentation (springs never pull, dampers dissipate). C64_inactive_violated: inactive end effectors receive uninitialised forces; C64_offset_violated: the contact test ignores the height of the contact plane. |
| C65 | proved | Series-elastic actuator state and output are inverse to each other. Series-elastic and second-order actuators; equilibrium characterised for every command. |
| C66 | proved | Nearest inverse-kinematics solution is returned. Selection of the nearest solution; trials, validation, guesses and frames of the numerical solver, with the Ipopt solve as parameter. An empty list of solutions reported as success would be undefined behaviour (third part of C66_closest). |
| C67 | partial | Barrier activations are barriers with exact derivatives. Derivatives for every configuration; shape for value-constructed barriers; C67_violated: loading a file into a default-constructed barrier leaves it switched off. |
| C68 | partial | Gaussian activations are bumps. Proved for file-configured activations; C68_violated: wrong sign in the value constructor. |
| C69 | proved | Extracting a control trajectory replays the policy along the states. Empty state trajectory is undefined (C69_extract_empty_undefined). |
| C70 | partial | Symplectic integration evaluates the controller at the current time. Proved for controllers that ignore time; C70_violated: the controller is always evaluated at time 0. |
| C71 | proved | Recording symplectic integration reports the whole grid.  |
| C72 | proved | Matrix-exponential discretisation is exact for linear time-invariant systems. Eigen's matrix exponential and QR inverse are taken to be exact. |
| C73 | partial | A discretised system propagates with its configured integrator. Proved for histories in which changing the integration type is followed by setting the system; violations: setIntegrationType alone has no effect (or is undefined), clone dereferences a null pointer. |
| C74 | proved | The controllability test decides reachability. With exact rank in place of the numerical rank of FullPivLU. |
| C75 | proved | Gramians are partial sums of the Gramian series.  |
| C76 | partial | Differentiating a cost function numerically does not change it. Violated: leaves the last perturbed state as current point and re-applies the time shift. Proved: entries are central difference quotients when no shift is set. |
| C77 | partial | A clone of a cost function or term behaves like the original. Violated for the terminal cost of the simple quadratic cost and for activations of barrier terms. Proved: intermediate costs agree and clone and original agree after the next point is set. |
| C78 | partial | The simple quadratic cost reports exact gradients and follows its reference. Violated for asymmetric weights and for reference changes before the next point is set. Proved for symmetric weights. |
| C79 | partial | State barrier terms can be evaluated once constructed. Violated: a freshly constructed term reads an empty array. Proved for copies. |
| C80 | partial | Filters evaluate time-varying models at the time they are given. Holds for time-invariant measurements and times that are multiples of the step; proved false otherwise (measurement function always called with time 0; linearisation time truncated to a multiple of dt). |
| C81 | partial | Exact Hessian values match the Hessian pattern given to the solver. Proved when constraints list lower-triangular positions only; proved to read beyond the stored values otherwise (pattern is taken without, values with the triangular view). |
| C82 | partial | Discretised path constraints stand at the rows and columns of their grid point. Proved for every control parametrisation that can be evaluated at all grid points (hold). Refuted for piecewise-linear controls, whose evaluation at the last grid point reads outside the grid (C82_linear_violated). |
| C83 | proved | Shot sensitivities and cost gradients are exact derivatives. Both spline types (consistent_weighted); cost part for at least one step and full cost evaluation, as the code requires. |
| C84 | partial | Stage times follow the configured step. Violated: changeTimeHorizon returns early when the number of stages is unchanged and keeps the old stamps; configure alone keeps the old number of stages. Proved after setInitialGuess. |
| C85 | partial | Arm trajectories run from the start to the target posture at rest. Samples, grid and start are proved; the last sample is the target when the step divides the horizon; C85_violated: otherwise the grid ends short of the target. |
| C86 | partial | A rigid-body pose stores orientations as requested and returns what was set. Proved for all constructors but the one from an Eigen quaternion; C86_violated: that one ignores the requested storage. |
| C87 | partial | Finite-horizon LQR design returns one gain per stage and rejects arrays that do not match. Proved in full for given linearisations; C87_violated: given a linear system, a control trajectory that is too short is read outside its bounds before the lengths are checked. |
| C88 | partial | A second-order actuator built without a gain has unit amplification. Proved with an explicit unit gain; C88_violated: without a gain the amplification is the squared frequency. |
| C89 | partial | Closeness of poses is an absolute tolerance. Characterised exactly; C89_violated: the tolerance is relative to the norms, so far-away poses that differ arbitrarily are near and poses close to the origin never are. |
| C90 | proved | A fixed-base robot system moves as its rigid body dynamics prescribe. Rigid body dynamics are parameters. A system with actuator dimension > 0 without actuators is undefined behaviour (second part of C90_actuated). |
| C91 | partial | Initial guesses for fixed-base problems are consistent. Proved for robots without actuators and series-elastic actuators, and for all stages but the last of the interpolation. C91_steady_violated: zero command with second-order actuators; C91_last_violated: the last stage's actuator state belongs to the previous stage's torque. |
| C92 | partial | End-effector forces given as controls act on the links. Proved for end effectors on distinct links; C92_violated: the last end effector on a link overwrites the others. |
| C93 | proved | The symplectic form of a robot system describes the same motion. Packing inverse to unpacking, and equality of the derivatives. |
| C94 | partial | Delay statistics and settings of the MPC time keeper. Proved for histories in which delays are measured throughout. C94_late_violated: delays of solves made while measuring was off (zero start time) enter the statistics once it is switched on. |
| C95 | proved | System and measurement models used by the filters are faithful. The sensitivity of the continuous-time model is a parameter (see C19). Not modelled: cloning an input-disturbed system copies from the uninitialised object itself (InputDisturbedSystem-impl.h:21). |
| C96 | partial | The steady-state Kalman filter applies the steady-state Kalman correction. Exact form of the correction proved; it is the Kalman correction multiplied by the system matrix, with the noise regularised. C96_violated: measurements are ignored for a memoryless system. The class template cannot be instantiated as it stands (see DESIGN.md); only update is modelled. |
| C97 | partial | A time horizon strategy set after construction takes effect. Proved for the strategy installed at construction. C97_violated: a strategy set later never reaches the time keeper. |
| C98 | partial | State prediction over the delay follows the executed policy. Number of steps and integration proved for the policy the code uses. C98_warm_violated / C98_cold_violated: that policy is the already truncated warm start or the initial guess instead of the executed policy. |
| C99 | partial | Post-truncation keeps policy and time stamp in step. Proved for the warm-starting handler. C99_cold_violated: with the base handler the truncated time is never written. |
| C100 | proved | Cost terms are found again by identifier and name. Names are a parameter of the lookup. Identifiers outside the list are undefined behaviour (unchecked access). |
| C101 | partial | Box constraints of the LQ subproblem are the user's box constraints in relative coordinates. Proved for one stage, all stages, the last state and whole containers of box terms, when at most as many constraints as components are given and every component is in range. Missing because the code lacks it: the check looks at the last component only and does not limit the number of constraints (C101_unchecked_violated), and replacing constraints by an empty container keeps the old ones (C101_replacement_violated). |
| C102 | partial | Linearised general constraints agree with the nonlinear ones around the current trajectory. Proved for every intermediate stage, and for the terminal stage relative to the point the container was given last; C102_after_summary shows that this is the last state once the summary of the same trajectory has been computed. In the first iteration after setting the constraints it is not (C102_first_iteration_violated): initializeCostToGo passes the last state to the cost function only. Single-threaded sweep; the multi-threaded one is not modelled for constraints. |
| C103 | proved | A linear-quadratic problem set up from a linear system and a cost function has that system and that cost. Exact identity of the objectives and equivalence of the dynamics, for all terms of degree two (quadratic_linear, quadratic_mixed, quadratic_quadratic, quadratic_quadTracking); constraint flag in C103_unconstrained. Real arithmetic. |
| C104 | partial | The quadratic program handed to HPIPM is the problem that was set. C104_first proves the claim for the first problem given to an interface, C104_iterations_partial for any number of further calls with the same problem object refilled in place, with no fewer stages and, where a stage keeps its number of box constraints, the same bounds absent. Outside of that the code does not do what the claim says: C104_second_problem_violated (another problem object keeps the first one's bounds), C104_appearing_bound_violated (a bound that becomes finite stays masked), C104_twice_violated (setting the same problem twice turns an absent general bound into an equality with zero), C104_fewer_stages_violated (input bounds stay at the last stage) and C104_moved_violated (reallocated arrays are read through dangling pointers). What HPIPM does with the program is not modelled. |
| C105 | proved | The reported constraint error of a trajectory is zero exactly if all constraints hold. Exact formula, non-negativity and equivalence with feasibility, for lists of containers that may be null. Bounds are assumed consistent (lower at most upper) and real arithmetic is exact. |
| C106 | partial | One full step of every algorithm solves affine-quadratic problems, and the approximation has the exact derivatives. All parts are proved for real arithmetic, the single-threaded sweep and roll-outs in the sense of C54. Reported cost (C106_cost_partial) only for activations that are 0 or 1, because fractional ones are squared (C37_violated). Box and general constraints are not part of C106_one_iteration. |
| C107 | partial | Direct multiple shooting minimises the cost of the trajectory it represents, with the right gradient. Value and gradient are proved for both evaluations (simple: zero-order hold; full: both splines), where the final cost is evaluated at time zero as the code does; so the full statement holds for final costs that do not depend on time and as long as the horizon is that of construction. C107_final_time_violated and C107_stale_weights_violated show that both restrictions are needed. The simple evaluation with linear splines reads outside the grid (C51_linear_violated). The correctness of the sensitivities of the shots is a hypothesis of the full gradient (C83 treats them). |
| C108 | partial | The policy after an MPC iteration applies the computed controls at the predicted states. Proved for all multiple-shooting algorithms except iLQR, where it is false (C108_ms_ilqr_violated): without the roll-out after the update the feed-forward control still refers to the old states. A two-stage scalar problem with a non-zero difference is computed beside the theorem. |
| C109 | proved | The first-stage feedback of the HPIPM interface is the optimal one. The factor of the control Hessian and the cost-to-go matrix of stage one are what HPIPM returns; that they are what their names say is a hypothesis. Arithmetic is exact (real numbers). |
| C110 | proved | Null-space projector and right inverse of an operational Jacobian. Real arithmetic; Eigen's LDLT is what Ldlt states (a congruence with a diagonal matrix, zero pivots inverted to zero). |
| C111 | partial | Time derivatives of the right inverse and of the null-space projector. The code violates the claim (C111_derivative_violated); C111_derivative_partial gives the exact difference: the derivative of P is dPdt() plus its transpose, that of the inverse is dJdagerdt() plus a null-space term. Default weight only. |
| C112 | partial | Cached quantities of an operational Jacobian never go stale. Proved for all query sequences without JdagerSVD(). With it the claim is violated (C112_mixed_violated): the two inverses share one cache. C112_svd_partial: they agree for independent rows with the default weight. |
| C113 | proved | Operational-space dynamics describe the same motion. OperationalModel and OperationalModelBase; OperationalModelRBD (fixed sizes 18 and 12) only fills in the coefficients and is not modelled. |
| C114 | proved | Constrained forward dynamics keeps the contacts. Mass matrix, Jacobians and bias forces are those of the generated robot code (parameters); arithmetic is exact. |
| C115 | proved | Constrained inverse dynamics gives the smallest feasible torques. Under the stated condition on the singular values; the thin SVD is what Eigen returns. The result is relative to a feasible acceleration, as the English statement. |
| C116 | proved | Frame Jacobian maps velocities to the motion of a point and its derivative gives the acceleration. The base Jacobian of the frame is the one of the generated robot code (a parameter that is assumed to be the derivative of the reported position in the base). |
| C117 | proved | Contact Jacobian and its analytic derivative keep the feet in place. The robot is an arbitrary chain of revolute and prismatic joints per end effector, whose columns are what the generated code provides; the numeric variant of the derivative is not modelled. Arithmetic is exact. |
| C118 | partial | A roll-out reported as successful contains no NaN. Holds for all stages; the terminal state is not checked (C118_terminal_violated). |
| C119 | partial | A solver works on the systems, step and method last configured. Proved for both interfaces; missing: switching the sensitivity method or time-varying flag by configure, and in-place changes of continuous-time nonlinear systems, where the code violates the property. |
| C120 | partial | The linearisation a solver uses is the derivative of its own roll-out. Exact for Euler and RK4 with the sensitivity integrator on time-invariant systems or with one sub-step, and for the forward Euler approximation of one Euler step; violated for several sub-steps on time-varying systems and for constant sensitivities on nonlinear systems. |
| C121 | partial | A force at an end effector is mapped to the equivalent force on its link. Exact and unique for every end effector on a moving link; violated for end effectors on the base link, whose transform is not the identity, and by setEndEffector, which does nothing. |
| C122 | partial | The optimised rigid-body kernels compute the spatial algebra they stand for. All kernels are exact except the single-axis bias force, whose second component reads the wrong product of inertia. Missing: that component. |
| C123 | proved | An inertia matrix stays the inertia of a rigid body. Arithmetic is over the reals. |
| C124 | proved | Forward and inverse dynamics of fixed-base robots are inverse to each other. Real arithmetic; DoubleTrait. |
| C125 | proved | Forward and inverse dynamics of floating-base robots are inverse to each other. HyQ and QuadrotorWithLoad (the latter without a positive definite inertia matrix: its pivots and composite inertias are shown to be invertible). Real arithmetic; DoubleTrait. |
| C126 | proved | Inverse dynamics splits into inertia, Coriolis and gravity terms. All five robots. Real arithmetic. |
| C127 | partial | The joint space inertia matrix is symmetric and positive definite. Holds for InvertedPendulum, DoubleInvertedPendulum, HyA and HyQ; false for QuadrotorWithLoad, whose link inertias are given about the centres of mass; its matrix is symmetric and invertible at every position. |
| C128 | proved | The joint space inertia matrix gives the kinetic energy. All five robots. Real arithmetic. |
| C129 | partial | Factorisation and inverse of the joint space inertia matrix. Proved for the three fixed-base robots at every position. False for QuadrotorWithLoad and HyQ (proved negations): the generated statements number the joints without the six base rows, so L is never a factor and rows of the inverse are never written; applied to the block of the joints alone they are right (HyQ: if the entries of the inverse between the legs, which are never written, were zero). Real arithmetic with exact square roots. |
| C130 | partial | Forward kinematics: all coordinate transforms belong to the described robot. Proved for the four robots with a .kindsl description; for the HyQ the transforms are proved consistent, and compared with the URDF description: hip and knee joints as described, the joints HFE 2 mm and the feet 2 cm off. The rounding of the HyA is also shown as a negation of exact agreement. Real arithmetic; the constant PI of the URDF is taken as the number pi. |
| C131 | proved | Jacobians map joint velocities to velocities of frames. Velocities are those of the delivered homogeneous transforms. Real arithmetic. |
| C132 | partial | Inertia parameters are those in the description of the robot. Proved for InvertedPendulum, DoubleInvertedPendulum and HyA. False for all three links of QuadrotorWithLoad (proved negation): the code has the moments of inertia about other axes than the description. False for all 13 links of HyQ (proved negation): other masses, and the moments given about the centre of mass are used about the origin of the link. |
| C133 | partial | Links and end effectors are looked up by number. Proved for links from 1 on and for end effectors. False for link 0 of every robot (matrix with the identity in the wrong corner) and for the link declared for the end effector of QuadrotorWithLoad, both proved; the look-up of links of QuadrotorWithLoad refers to names that do not exist and is not modelled. |
| C134 | proved | End effector Jacobians and velocities are derivatives of the end effector pose. Over the real numbers; the pose query with Euler angles or quaternions is not modelled. |
| C135 | proved | External forces enter inverse dynamics by virtual work. Over the real numbers, for all five robots. |
| C136 | proved | Energy balance of the dynamics. Over the real numbers. Inverse and forward dynamics of all five robots. |
| C137 | proved | Control Jacobian of rigid body systems. Over the real numbers, assuming of Eigen that its Cholesky solution inverts symmetric positive definite matrices . Generic theorems for any robot whose inertia matrix maps acceleration changes to force changes, and proofs of this for four robots from C124-C127 and C135. |
| C138 | proved | State Jacobian of rigid body systems, kinematic part. Over the real numbers. kindr's rotation of Euler angles and its map from angular velocity to rates are assumed to be as `Kindr.Ok` says. The lower half of the Jacobian is by finite differences (C23). |
| C139 | proved | Floating-base systems describe the motion of the robot. Over the real numbers; kindr as in `Kindr.Ok`. The forces of end effectors enter as the code assigns them to links (two end effectors on one link overwrite each other, as in C92). |
| C140 | partial | Forward and inverse dynamics of a floating-base robot undo each other. Proved for FloatingBaseForwardDynamics and FloatingBaseID, for HyQ and for the quadrotor with load. FloatingBaseFullyActuatedID ignores the base acceleration it is given and passes an uninitialised vector: it is right only if that vector happens to hold the acceleration. |
| C141 | partial | Copies of floating-base systems. Proved for systems with a contact model; without one - as constructed - the copy constructor dereferences a null pointer. |
| C142 | partial | Ellipsoidal obstacles. Proved for a matrix with the reciprocals of the half axes on its diagonal and constraint values below the largest number, which is the upper bound. The documentation calls this matrix the one of half axes and gives the threshold 1; both readings are wrong (`C142_half_axes_violated`, `C142_threshold_violated`). |
| C143 | partial | Planes and plane estimation. Over the real numbers, assuming of Eigen's QR solution that it is a least squares solution. Planes through the origin cannot be represented by the estimate (`C143_ground_violated`). |
| C144 | partial | Gradient of the geometric task-space cost. Over the real numbers, with Eigen's conversions as in `EigenRot.Ok` (shown to exist). Proved for equal weights on the axes of the orientation error; with different weights the gradient is wrong (`C144_weights_violated`). |
| C145 | partial | Task-space costs vanish exactly at the goal. Over the real numbers. The copy constructor of the position term does not copy the time activation (`C145_clone_violated`). |
| C146 | partial | Cost of the inverse kinematics problem. Gradient as in C144, so for equal weights on the axes of the orientation error. Hessian values for symmetric Hessians. |
| C147 | partial | LQR around inverse dynamics torques. Over the real numbers. The derivatives of the linear system and the Riccati solution are hypotheses, discharged for the inverted pendulum except for the Riccati solution. If the design fails, the gain is overwritten with a value computed from an uninitialised matrix (`C147_failed_violated`). |
| C148 | partial | Manipulability, condition number and joint velocities from a Jacobian. Over the real numbers, with Eigen's singular value decomposition as a parameter with a contract, and assuming that it treats exactly the vanishing singular values as zero. With more rows than columns the singular values are written to a vector of the wrong size and the manipulability is always zero (`C148_skinny_violated`). |
| C149 | partial | Inverse dynamics controller for floating base robots. Over the real numbers, with kindr's conversions as in `Kindr.Ok` and `EulerOk` (shown to exist). Missing: convergence, and the motion of the orientation. The desired twist is compared in the wrong frame (`C149_frames_violated`); desired joint positions are ignored. |
| C150 | partial | Compiled derivatives of a function. Compiled code is a parameter `AD` whose Jacobians and Hessians are those of the recorded function (`AD.Faithful`, shown to exist); compilation succeeds. A copy of a compiled object has lost its sparsity pattern (`C150_clone_violated`); a function without outputs is ignored (`C150_empty_violated`). |
| C151 | partial | Cost function with automatic differentiation. Analytical terms fully switched on or off for the values. Code violations: time activations and time shifts are ignored (`C151_activation_violated`, `C151_shift_violated`), changes after initialisation have no effect (`C151_stale_violated`), configurations read twice count twice (`C151_reload_violated`). |
| C152 | partial | Constraint container with automatic differentiation. Histories in which no copy is copied. Code violations: constraints are always evaluated at time zero (`C152_time_violated`), kinds without constraints raise an error (`C152_empty_violated`), containers made with a point cannot receive constraints (`C152_point_constructor_violated`). |
| C153 | partial | Copies of constraint containers are independent. Histories in which no copy is copied: the copy keeps a function object bound to the first container (`C153_second_copy_violated`). |
| C154 | partial | Optimal control problem holds what it was given. Code violations: `setNonlinearSystem` keeps the linearisation of the old system (`C154_linearisation_violated`), constructors leave constraint containers uninitialised (`C154_uninitialised_violated`), the check reads an indeterminate horizon after the default constructor (`C154_default_violated`), null pointers are dereferenced (`C154_null_violated`). |
| C155 | partial | Shooting solver works with what it was handed last. Constraints changed through the backend, whole problems without constraints. Code violations: the solver's own functions for constraints throw, so a problem with constraints can only be given to the constructor and is half set otherwise (`C155_constraints_violated`), constraints of the problem before stay in use (`C155_reset_violated`), the constructor does not check the problem (`C155_unverified_violated`). |
| C156 | partial | Direct multiple shooting solver works with what it was handed last. Construction, horizon and initial state. Code violation: no other change after the construction has any effect on what is solved (`C156_fixed_violated`), although the accessors show it (`C156_accessor_violated`). |
| C157 | partial | Linear quadrotor is the linearisation of the quadrotor. States of norm below 1e20. Code violation: the dynamics returns zero for larger ones (`C157_large_violated`). |
| C158 | partial | Quadrotor obeys the equations of a rigid body. States of norm below 1e20, see C157. |
| C159 | partial | Switched constraints are those of the scheduled mode. Terminal values at times scheduled for the last mode. Code violations: at other times they are those at an old point (`C159_terminal_violated`); intermediate bounds are empty between initialisation and the first point (`C159_bounds_violated`). |
| C160 | partial | Copies of switched constraint containers. Independence is proved. Code violations: directly after copying the copy answers with the container of the first mode while its bounds are those of the active one (`C160_copy_violated`); a container used for two modes is split by the copy, and terminal answers differ (`C160_alias_violated`). |
| C161 | proved | The closed-form solver and the robot model of the HyA agree on the kinematics. All entries, for all joint positions; `C161_aligned` is the one-parameter family of configurations at 90° of the second joint. |
| C162 | partial | Inverse kinematics gives the reachable configurations within the joint limits. For poses for which the solver reports no free joint; the solver itself (25000 generated lines) is a parameter assumed to be right about what it reports. Code violation: for poses reachable with the axes of the first and third joint aligned, the value of a free joint is read through a null pointer (`C162_aligned_violated`). |
| C163 | partial | Settings of the solvers for nonlinear programs take effect. Numeric and integer options of IPOPT and all options of SNOPT follow the last call (C163_ipopt_numbers, C163_snopt). Code violations: string options of IPOPT keep the value of the constructor (C163_ipopt_strings_violated), so that a solver switched away from exact Hessians keeps asking for them without being told their size (C163_hessian_violated); ten settings are never passed on (C163_ignored_violated); settings given to the constructor of the SNOPT solver have no effect (C163_snopt_constructor_violated). |
| C164 | partial | IPOPT sees the problem as it is at the point it asks about, and its result is what the problem keeps. Callbacks, description, results and return value proved for all sequences of callbacks. Code violations: a warm start combines the old guess with the new multipliers (C164_warm_start_violated); before the first solve multipliers have no size (C164_lambda_violated); without a guess the starting point is uninitialised (C164_guess_violated); data prepared from the variables may belong to another point than the solution (C164_prepared_violated). |
| C165 | partial | SNOPT sees the problem as it is, its result is what the problem keeps, and solvers do not get into each other's way. Layout, callbacks, storing of results and the pool of solvers proved. Code violations: solve returns true after failures and leaves the last trial point in the problem (C165_failure_violated); what prepareWarmStart writes into the state arrays is overwritten (C165_warm_start_violated); problems that do not size their constraint multipliers, as the inverse kinematics problem, are read outside (C165_unsized_violated). |
| C166 | partial | Joint PID controllers do not mix joints. Independence of joints proved for all histories (C166_joints_independent), limits for histories without setAllPIDGains (C166_limits_partial). Code violations: setAllPIDGains discards time step, bound of the integral part and limits of every joint (C166_gains_violated); clone throws, so that a system with such a controller cannot be copied (C166_copy_violated). |
| C167 | partial | A controlled system uses the controller it was given, and copies have their own. Proved for continuous-time systems and all histories. Code violations: the copy of a discrete-time system shares the controller (C167_discrete_violated); getLastControlAction of a system constructed without controller reads an uninitialised vector before the first evaluation (C167_last_action_violated). |
| C168 | proved | Elementary controllers compute what they document.  |
| C169 | partial | Linear systems made by automatic differentiation return the Jacobians of their system. Proved for all histories (C169_autodiff, C169_compiled_partial, C169_uncompiled, C169_copy_autodiff, C169_copy_compiled_partial), relative to CppAD returning derivatives of the recorded function (Lib.Faithful), at time 0. Code violations: the time asked for is ignored (C169_time_violated); the cache starts with zero matrices for a random point and cannot be turned off (C169_initial_violated); changed parameters are not seen by the original but by its copies (C169_parameters_violated); a copy refers to the system of the original (C169_dangling_violated). |
| C170 | partial | Generated classes evaluate the derivative they were generated from. Proved for all histories of calls for generated linear systems and for Jacobian classes with the default pattern, relative to Lib.Faithful. Code violations: with a pattern given, entries are stored in the wrong places (C170_pattern_violated); copies of the generator have no recorded function (C170_copy_violated). |
| C171 | partial | The discrete-time LQR solver converges to the optimal infinite-horizon feedback. Existence and uniqueness of the steady state, convergence, minimality, stability, termination and accuracy proved. Code violation: when no steady state exists the solver may nevertheless return a result, since it only looks at the last change (C171_no_steady_state_violated). |
| C172 | partial | The generated linearisation of the actuated inverted pendulum is the derivative of its dynamics. Equation of motion, input derivative and all entries of the state derivative but one proved exactly. Code violation: the effect of the motor position on the acceleration is a literal with 15 digits, off by less than 1e-11 (C172_rounded_violated). |
| C173 | proved | The continuous-time LQR with the direct Riccati solver stabilises and is optimal. Hypotheses: Eigen's RealSchur and LAPACK's dtrsen deliver what they document (SchurOk with subdiagonal entries zero or at least 1e-12, ReorderOk). Detectability is of (A, Q). Exact arithmetic. Without the conditions success is still reported: neither the number of stable eigenvalues nor the inverted block is checked (C173_unstabilisable_violated). |
| C174 | partial | The continuous-time LQR with the iterative Riccati solver ends with a stabilising, nearly optimal gain. Proved: for every desired accuracy there is a tolerance below which the claim holds, and no iterate is singular (any dimension; Eigen's FullPivLU and isApprox as documented, exact arithmetic). The code violates the claim for its fixed tolerance 1e-6: for x' = 1.0000009 x + u with weights 1 and 1e13 it stops after one step, reports success and returns a gain under which motions diverge (C174_tolerance_violated). For systems that cannot be stabilised success is reported as well (C174_unstabilisable_violated). |
| C175 | partial | A complete solve returns a feasible trajectory that is no worse than the initial guess. Proved for arbitrary linear-quadratic solvers and any number of iterations: returns normally, never reads outside arrays, feasible solution from the initial state with matching costs and errors, policy reproduces the trajectory, merit never above that of the roll-out of the guess (strictly below with the simple line search unless the guess is kept). The code violates the rest: the first line search takes the constraint errors of the guess to be zero, rejects a step that lowers the merit, stops and reports success with the infeasible guess (C175_stale_violated; a second call to solve finds the better solution). Serial backend; exact arithmetic. |
| C176 | partial | An iteration of iLQR or single shooting lowers the cost exactly when the trajectory is not stationary. Proved in full for the simple line search: the step is zero exactly at stationary trajectories, a descent direction elsewhere (whatever the cross terms and indefinite state weights, as long as the corrected control Hessian is positive definite), and the line search with enough back-off steps takes a step that lowers the cost. The code violates it for the Armijo rule: its expected decrease is not that of the quadratic model, and a non-stationary trajectory exists at which it rejects every step although each of them lowers the cost (C176_armijo_violated, default parameter). Exact arithmetic; defects zero (single shooting); no constraints. |
| C177 | partial | Multiple shooting stops only at feasible stationary trajectories. Proved for the simple line search: zero step exactly at feasible stationary trajectories; descent of the merit for all large enough weights, with an explicit sufficient weight for convex models; nothing accepted at a solution. The code violates the last sentence: the default weight is zero, and an infeasible guess that costs less than every feasible trajectory is kept and reported as converged, with its recorded defects set to zero (C177_default_weight_violated). Exact arithmetic; serial backend; no constraints; Armijo rule see C176. |
| C178 | partial | Generated source files are the shipped templates with the placeholders filled in. Proved for all names, namespaces, dimensions and generated code that contain no placeholder, for the three kinds of classes, with the shipped templates as generated literals. The code violates the rest: a class name that contains its own placeholder makes the replacement run for ever (C178_endless_violated), a class name that contains another placeholder is rewritten inside the files but not in the file names, so that the source includes a header that was not written (C178_clash_violated). |
| C179 | partial | A cost function loaded from a file is the one written in the file. Proved for files with quadratic, mixed, quadratic-multiplicative and smooth-abs terms, always active or in a single time window, without a bound on the number of terms. The code violates the rest: the constant of a loaded linear term is uninitialised (C179_linear_violated), an unknown kind of time activation dereferences a null pointer (C179_activation_kind_violated), an incomplete window is ignored (C179_activation_ignored_violated), a barrier as time activation makes the term zero (C179_barrier_violated), names of some kinds are dropped (C179_name_violated) while those of quadratic and mixed terms are kept (C179_names_partial). Parsing of the text by boost is a parameter; exact arithmetic. |
| C180 | partial | Solver settings loaded from a file are those written in the file. Proved for every tree and section: independent values (C180_values), the line search if its section is complete (C180_line_search), the names if all are given (C180_choices), success if all written names are known (C180_succeeds), unknown type of line search or integrator ends the program (C180_unknown). The code violates the rest: the names are one block that ends silently at the first missing one (C180_choices_violated), a line search section without a type is dropped (C180_line_search_violated), one without debugPrint is read in part (C180_step_limit_violated), the check accepts a negative number of threads that leads to an access behind an empty array (C180_check_violated). Parsing and conversion of texts by boost are parameters; scalars are real numbers. |
| C181 | partial | Matrices and estimator settings loaded from a file are those written in the file. Proved for matrices at every path (C181_matrix) and for the state observer and the extended Kalman filter with a section name ending in a dot (C181_observer). The code violates the rest: a plain section name reads keys of another name, all matrices are zero (C181_section_violated); no section name serves the steady-state filter, whose two entries are combined differently (C181_steady_state_violated); the parameters of the unscented filter are read as Booleans (C181_unscented_violated). Conversion of texts is a parameter. |
| C182 | partial | A real-time iteration prepared before the state is known gives the solution for the measured state. Proved for every problem and guess with shots up to the horizon and the Riccati solver: the split step equals the whole step (C182_step), it is optimal for affine-quadratic problems with three of the four algorithms with several shots (C182_optimal_partial; the fourth is C108_ms_ilqr_violated), also after any history of calls (C182_loop_partial). The code violates the rest: setting the state erases the gaps of the prepared shots from the reported norm (C182_defects_violated), closed-loop roll-out of the first shot changes controls after the limits were made (C182_limits_violated), a horizon shorter than a shot leads outside the arrays (C182_short_horizon_violated). |
| C183 | partial | The multi-threaded solver computes what the single-threaded one computes. Proved for every phase that starts while no worker is busy with an earlier task: in every interleaving of single assignments the arrays stay defined and at the end of the phase equal the serial result (C183_rollout_partial, C183_lq_partial), ranges of one index are done by the main thread as in the serial backend (C183_single), and every state of the protocol is reached together with the work (C183_reached). Missing: a worker still busy with an earlier phase, which the code does not exclude (C56_violated). The restriction is needed: C183_violated, for every problem with two stages and any number of workers, shows an execution in which the approximation is never stored. |
| C184 | partial | The direct multiple shooting solver runs with the settings written in the file. Proved: the values after a successful load (C184_values, C184_solver, C184_ipopt, C184_snopt, C184_cppad), exactly when loading succeeds (C184_succeeds), the options the NLP solver runs with (C184_effect_partial, C184_effect_snopt), and that settings passing the check work unless they ask for RK5 or an optimized grid (C184_accepted_partial). Violated by the code: an unknown NLP solver is only reported and solving then dereferences a null pointer, 256 is read as IPOPT, settings that pass the check make the constructor throw, an unknown integration type ends the program with exit code 0, configure never reaches the NLP solver, an unknown compiler is ignored, print_frequency_iter is never read, limits from 2^31 become negative. |
| C185 | partial | The inverse kinematics solver minimises the pose cost subject to the joint limits and returns only joint positions that satisfy both. Proved: what IPOPT is told (C185_description, C185_pattern, C185_feasible), the answers to all callbacks unless the evaluator is given to a second problem (C185_answers_partial), trials and results (C185_retries, C185_random), targets (C185_target_quaternion, C185_target_euler), the evaluator of a robot (C185_evaluator_partial). Violated by the code: an evaluator given to a second problem looks at the variables of that problem (C185_shared_violated); the status of IPOPT is ignored, so a solution may violate the joint limits (C185_limits_violated; C185_limits_partial if the accepted run succeeded); a failed call with random retries replaces the guess of the user (C185_guess_violated). |
| C186 | partial | The quadrotor with load moves as thrust, torques, gravity and joint damping demand. Over the real numbers; kindr as in `Kindr.Ok`. Proved: motion (C186_euler, C186_quaternion), energy (C186_energy), response through the inertia matrix (C186_response), hover (C186_hover). Violated by the code: with horizontal rod more thrust accelerates the body against the thrust, as the link inertias are given about the centres of mass (C186_response_violated, see C127). |
| C187 | partial | The code-generated task-space pose term evaluates and differentiates the cost of the pose for the references given last. Over the real numbers; the generated code is a parameter that returns derivatives where they exist (`AD.Faithful`). Proved: values, references and activation after all histories (C187_value), derivatives (C187_derivatives), rejection of files that lack a scalar (C187_rejected), with smooth poses proved for all five robots. Violated by the code: files without an orientation are accepted as the identity (C187_orientation_violated), a failed load leaves a mixture (C187_failed_load_violated), a matrix given to a constructor is read as Euler angles from its first column (C187_matrix_violated), an override of setStateFromVector has no effect until setup is called again (C187_override_violated, C187_override_pendulum_violated), a default-constructed term dereferences a null pointer (C187_default_violated). |
| C188 | partial | The robot front ends pass initial guesses to the solver and hand out its results. Proved: guesses and results shown (C188_floating, C188_steady, C188_interpolation, C188_results), rejection of short guesses (C188_floating_short, C188_steady_short). Violated by the code: getTimeArray of both front ends returns a reference into a destroyed temporary (C188_time_violated); the default arguments of initialize always throw (C188_default_violated); a rejected guess leaves uninitialised entries (C188_rejected_violated); with more points than stages the interpolated guess stops short of the final state (C188_interpolation_violated). |
| C189 | partial | Sensitivities of a shot computed from the logs are the derivatives of the integrated states. Proved for Euler and RK4, initial state and both nodes, linear and held controls, for arbitrary earlier calls. Violated: the duration sensitivities are always empty; the third integration type ends the process with exit(0) for two of the three computations; computing without logs dereferences a null pointer (outside assert builds). |
| C190 | partial | Every link of the shipped robots is a body that can exist. Proved for all 13 links of HyQ, five of the six links of HyA, the second link of the double inverted pendulum and the body of the quadrotor, with explicit masses. Violated: the link of the inverted pendulum, the last link of HyA and both links of the quadrotor's load cannot exist, whatever distribution is tried; the first link of the double inverted pendulum misses it by a rounding error. |
| C191 | proved | The centre of mass of the whole robot is that of the links the dynamics use. Proved for all five robots. The frames are arranged as in C130 (for HyQ as the generated transforms have them). The fixed base of the arm and the pendulums has no mass in the generated code. Masses are allowed to be negative, so that the links that cannot exist (C190) are covered. |
| C192 | proved | Contact points of a robot in contact stay where they are. Generated mass matrix, Coriolis and gravity terms are parameters; positions and Jacobians of the end effectors are those of arbitrary kinematic chains (C130, C117). Contacts that lose rank are excluded. Cloning the system always throws, so it cannot be handed to solvers that copy their system; not part of the claim. |
| C193 | proved | The generated Jacobians of the feet of HyQ are the derivatives of the kinematics. Every statement of both generated functions is translated, with real numbers for doubles. The positions and velocities are those of the modelled kinematics: generated transforms and Jacobians of HyQ, the state read from the vector, and the rotation of the base as kindr computes it through quaternions. |
| C194 | partial | Generated Hessian classes return the weighted Hessian. The code violates the property: the generator of names is given the number of outputs where it needs the number of inputs (CGHelpers.h:220), so inputs and weights are mixed up. C194_hessian_violated gives, for any two different numbers of inputs and outputs, a function whose class is wrong; C194_HyA_violated shows that every call of the shipped class (translated statement by statement) reads outside of the weights. Proved: the property for as many outputs as inputs. How CppADCodeGen chooses names is an assumption, confirmed by the shipped class; sparsity patterns other than the default are not modelled. |
| C195 | partial | A numerically linearised system returns the difference quotients of its system in all rows. Over the real numbers; systems are functions without side effects. Proved for all discrete-time systems and all systems of which the type is right (C195_linearise_partial, C195_affine), which includes SecondOrderSystem (C195_secondOrder) and fixed-base robots without actuators (C195_fixBase). Violated by the code: FixBaseFDSystemSymplectic calls itself second-order also with actuators, whose positions need not change with their velocities, so the linearisation is wrong (C195_type_violated, C195_actuator_violated); a null pointer is dereferenced before it is checked (C195_null_violated). |
| C196 | proved | The system made of the generated dynamics of HyQ moves its base and joints as its velocities say. Over the real numbers. The statements of the generated function that compute the first eighteen elements of its result are translated one by one; those that compute the accelerations are a parameter, so nothing is claimed about the values of the accelerations. The functions of kindr are assumed to be right (Kindr.Ok), as in C141. |
| C197 | partial | Adaptive integration keeps to the tolerances that were set and to the type that was chosen. Proved: the method is that of the type chosen last (C197_method_partial), and with versions of Eigen before 3.3 a step is accepted exactly if its error is within the tolerances (C197_error_partial). Violated by the code: tolerances are copied when a stepper is made, so that setting them later has no effect (C197_tolerances_violated); the sum of a number and a vector provided for Eigen 3.3 and newer is their product, so that a step is measured by the product of both tolerances, and no step is accepted with a finite error measure while a component rests at zero (C197_error_violated, C197_error_both_violated); the own steppers, one of which is the default, throw (C197_own_violated); changing to an unsupported type does nothing (C197_unsupported_violated). How boost odeint computes the error from these operators and decides on steps is taken from its documented error checker, not from the repository; quotients with divisor zero are not finite numbers. |
| C198 | partial | Integrators and their copies record the trajectories of their systems. Proved for integrators made by a constructor (C198_made_partial). Violated by the code for copies: the implicit copy constructor copies functions that refer to the original, so that a copy returns the right final state but records nothing while the original lives (C198_copy_violated), and its use is undefined after the original was destroyed (C198_dangling_violated). Modelled with the own steppers and without event handlers and assignment. |
| C199 | partial | System models of filters advance with the control they are given. Proved for a model that is made of its system after all other models and after all controllers were set (C199_given_control_partial). Violated by the code otherwise: each model hands its own constant controller to the shared system, so that a model made earlier ignores its control and advances with that last given to the later model, zero at first (C199_two_models_violated, C199_two_models_example_violated); likewise when the caller sets a controller later (C199_controller_violated). The integration scheme is a parameter; derivatives are the subject of C95. |
| C200 | partial | Swapping linear control laws exchanges them. Proved for feedforward, increments and gains (C200_gains_partial), and completely for laws on the same times (C200_same_times_partial). Violated by the code otherwise: swap leaves out the times, so that laws on different times are never exchanged (C200_times_violated) and the lengths of times and gains may differ afterwards (C200_lengths_violated). setZero of these classes is not modelled: it calls a function that does not exist. |
| C201 | partial | The summary of a solver describes the iterations of the current solve. Proved: the columns have one row per iteration completed in the whole life of the solver (C201_rows_partial), row by row with the right contents and the number within its solve (C201_contents_partial), and completely for the first solve (C201_first_solve_partial). Violated by the code after a restart: reset leaves the summary as it is, so that it also holds the rows of all earlier solves (C201_restart_violated); under MPC it grows with every call and all rows have the number 0 (C201_mpc_violated). |

## Disagreements between code and properties

Each is a theorem about the model: a concrete input or history for which the property fails.

* `C01_violated`: C01 is violated as stated in full generality: asking an *empty* trajectory for the index of a time throws, as it should, but leaves the cached position at -1, and every later evaluation on the same object throws, although a fresh object with the same (sorted, consistent, non-empty) contents returns a value.
* `C07_switch_event_last_undefined`: In the last phase there is no next switch; the query then reads beyond the end of the schedule (undefined behaviour), it does not throw.
* `C09_violated`: C09 is violated for a timer that is stopped without having been started: it reports the absolute time stamp of the stop as elapsed time.
* `C10_violated`: C10 is violated by the value constructor of the periodic activation: it leaves the end time uninitialised, so that asking whether it is active is undefined from the period offset on.
* `C11_violated`: C11 is violated: any call with identifier 1 on a new quantiser, any vector with at least two entries, and any call at all after a reset read and write outside the table of remainders.
* `C15_violated`: C15 is violated by the recording of the built-in steppers: for every integration the recorded trajectory has `n`, not `n + 1`, entries; it never starts with the initial state at the initial time (for `dt ≠ 0`).
* `C19_backward_euler_violated`: C19 is violated for backward Euler: the Jacobian is taken at the start of the step although the method evaluates the dynamics at the end. For `x' = x - exp x` and `dt = 1` the implicit step is `y = log x`, whose derivative at 1 is 1; the code returns `1/e`.
* `C19_tustin_violated`: C19 is violated for Tustin: for `x' = -x` and `dt = 1` the trapezoidal step is `y = x / 3`; the code returns `A = 0`.
* `C20_symplectic_violated`: C20 is violated for symplectic stepping of nonlinear systems: the recorder stores the state after each symplectic step, so the linearisation is made at the wrong point. For `p' = p²`, `v' = 0`, one step of length 1 from `p = 1` has derivative 3 with respect to `p`; the reported value is 5.
* `C20_violated`: C20 is violated for time-varying systems with several sub-steps: every sub-step is linearised at the time of the first. For `x' = t x`, two Euler sub-steps of length 1 from time 0 map `x` to `(1 + 0)(1 + 1) x = 2 x`; the reported sensitivity is 1.
* `C21_violated`: C21 is violated whenever the simulation step does not divide the control period: the residual step has length `frac` instead of `frac * sim_dt`, so the plant is advanced by the wrong amount unless `sim_dt = 1`.
* `C24_spring_violated`: C24, disagreement: a spring of stiffness 4, mass 1, damper 1 gives too little damping: the constructed acceleration at velocity 1 is `-1/2` instead of `-1`.
* `C25_observability_violated`: C25, disagreement: for every system with two or more states the observability matrix computation writes a block below the last row.
* `C26_violated`: C26, disagreement: whatever number `n ≥ 1` of threads is configured, when one thread more than that asks, it gets number 0, the number of the first thread.
* `C28_remaining_violated`: C28, disagreement: with an initial horizon of 10 s, first solve at 0, next prepare at time 3 without any delay: 7 s remain, but the horizon is 4 s: the 3 s since the last solve are charged twice. If the next solve follows quickly, the horizon grows again (prepare at 3.5 after a solve at 3: 6 s), so in fixed-final-time mode it is not even monotone.
* `C29_extension_violated`: C29, disagreement: warm starting the three-stage example policy after a delay of one stage with a horizon of four stages appends two stages, both stamped `dt` instead of `2 dt` and `3 dt`: the stamps 0, 1, 1, 1 are not a uniform grid.
* `C31_first_internal_violated`: C31, disagreement with the default settings (internal clock, delay not measured): the first policy is stamped with the state's stamp plus the clock reading, i.e. plus the seconds since 1970.
* `C31_first_violated`: C31, disagreement with external timing: in the first iteration the policy's stamp is twice the state's stamp, for every state stamp `x ≥ 0`, and for every negative one the call throws.
* `C33_terminal_jacobian_violated`: C33 fails for the terminal state Jacobians: a terminal term added after initialisation is not reported (out-of-bounds write instead), and adding an *intermediate* term makes the up-to-date terminal ones unusable.
* `C34_default_violated`: C34 fails for the default implementation whenever the Jacobian has at least two rows and two columns: the values are listed column by column, the pattern row by row.
* `C37_violated`: C37 is violated by every fractional activation: for a cost function with one active term whose activation value `a` is neither 0 nor 1, the reported cost is weighted by `a²`, and the reported gradient is not the gradient of the reported cost wherever the term's gradient does not vanish.
* `C39_long_shot_violated`: C39, violated: with more steps per shot than stages (accepted by the settings check) the preparation does nothing and the finishing phase starts outside the arrays, whereas one full sweep is fine.
* `C41_fixed_point_violated`: … and need not solve it for the weight the user gave, however small `eps` is.
* `C41_large_tolerance_violated`: A tolerance above one makes the solver return the initial guess and leave the caller's gain variable as it was, whatever the system.
* `C41_weights_violated`: The gains are not optimal for the weights the user gave: with unit weights and `x⁺ = x + u`, one stage, another gain costs strictly less.
* `C43_uninitialised_violated`: A filter as constructed cannot be used: whatever the arguments, the first call either fails or reads members no constructor initialises.
* `C43_update_violated`: With process noise the correction is not that of the Kalman filter: scalar system with identity dynamics, unit covariance and unit noise matrices. The Kalman filter ends with covariance 2/3, this filter with 3/2.
* `C46_violated`: C46 does not hold: `i / (numPairs_ - 1)` is an integer division, so all states but the last are `x0`; with two shots or more and `x0 ≠ xf` no interior state is the interpolated one.
* `C50_violated`: C50 is false: as soon as one general constraint has Jacobian entries by the input, fewer entries are reported than are written, and writing values and pattern into vectors of the reported size runs over their end.
* `C51_linear_violated`: C51 does not hold for piecewise-linear controls: computing the weights reads the duration of a shot that does not exist, behind the end of the time grid, for every grid.
* `C52_violated_horizon`: **C52 violated, horizon.** Whatever is called after construction, also with a horizon in the problem different from the one in the settings, the shots integrate over `[0, T]` with the `T` of the settings given to the constructor; so if the requested horizon differs from it by more than half a simulation step, the last shot ends elsewhere.
* `C52_violated_initial`: **C52 violated, initial state.** Whatever is called after construction, the initial-state constraint demands the state the solver was constructed with: it has zero residual exactly for decision vectors with `s_0 = x0`. In particular the vector that `changeInitialState x1` itself just wrote violates the constraint whenever `x1 ≠ x0`.
* `C53_violated_after_reset`: **C53 violated** after the update counter has been reset: the next update reaches the count of the first again, and the query returns the result for the first vector `x` instead of the new one `y`.
* `C53_violated_after_write`: **C53 violated** when the vector changes outside the solver interface (new initial guess, new initial state, a solution read back): for every system and every kind of query that succeeded for the old vector, the next query still returns the old result, whatever the new vector is.
* `C53_violated_before_update`: **C53 violated** before the first update: for every system, the counters of a new problem agree (all are zero), so nothing is integrated, and reading the integrated state is undefined behaviour.
* `C55_violated_armijo`: C55 violated by the Armijo rule: a direction along which the model predicts no decrease is accepted although the merit stays the same.
* `C55_violated_rejected`: Hence, for every line search that rejects all steps while some defect is not zero, the defects are not as before.
* `C55_violated_stale_constraints`: C55 violated after a new initial guess: `reset()` (called by `setInitialGuess` and `changeInitialState`, `NLOCBackendBase-impl.hpp:1365-1377`) keeps the constraint errors of the previous trajectory, so the first line search compares with a wrong merit and accepts a step that increases it.
* `C56_violated`: C56 violated, for any number of workers: a roll-out phase over the indices 0, 1 followed by a linear-quadratic approximation over the same indices can end with both phases over and *no* linear-quadratic approximation computed, every index having been rolled out twice.
* `C56_violated_range`: C56 violated: the call `rolloutShots(K, K-1)` that multiple shooting makes when one shot spans the whole horizon (`MultipleShooting-impl.hpp:59`, here with `K = 1`) works on index 0 and then on index `2^64 - 1`.
* `C57_violated`: C57 fails: with two workers the search may return a smaller step than the serial search. The candidate with exponent 2 overwrites the accepted candidate with exponent 1 while candidate 0 is still being evaluated (`NLOCBackendMP-impl.hpp:512-545` does not compare `alphaExp` with `alphaExpBest_`).
* `C57_violated_stale`: C57 fails across searches: nothing makes the main thread wait for workers that still compute a candidate of the finished search; such a candidate, computed from trajectories of the previous iteration, can be published as the result of the next search, in which no candidate is accepted.
* `C58_violated_completion`: C58 violated: the main thread has seen that work is left but does not sleep yet when the worker completes it and notifies; then both sleep although all the work is complete.
* `C58_violated_range`: C58 violated: after the call `rolloutShots(K, K-1)` of multiple shooting with one shot over the whole horizon, the main thread is released only when more than `2^64 - 1` indices were counted, which a 64-bit counter never reaches.
* `C58_violated_search`: C58 fails for the line search: the notification comes between the main thread's evaluation of its predicate and its going to sleep; the search is over and the main thread sleeps forever.
* `C58_violated_search_zero`: C58 fails for `maxIterations = 0`: in every execution with any number of workers, the main thread never leaves the wait of its first search.
* `C58_violated_wakeup`: C58 violated: the worker has seen that there is no task but does not sleep yet when the main thread publishes the task and notifies; then both sleep.
* `C59_violated`: C59 violated for every sequence of outcomes and every iteration limit: `solve` always returns `true`, also when no iteration ran or none found a better solution.
* `C59_violated_when`: So the claim fails exactly for the runs in which no iteration found a better solution; these exist for every iteration limit.
* `C59_violated_worse_reported`: C59/C55: without line search an iteration that makes the cost worse is also reported as having found a better solution (the relative change is compared in absolute value).
* `C62_far_undefined`: C62, undefined behaviour: the restriction `Near` is needed, an angle further away than `2³¹` turns makes the conversion to `int` undefined.
* `C64_inactive_violated`: C64 is violated: an inactive end effector receives whatever the array of forces held, so that the same call on the same state can return different forces.
* `C64_offset_violated`: C64 is violated: with a contact plane at a positive height and no smoothing, an end effector below the plane but above height zero receives no force, although the documented force is positive; with the plane below zero, an end effector above the plane is braked by the damper.
* `C64_undefined_smoothing`: C64: an undefined smoothing type is reported as soon as an active end effector needs it.
* `C67_violated`: C67 is violated for a default-constructed barrier configured from a file: both bounds stay inactive, so the barrier is identically zero whatever the file says.
* `C68_violated`: C68 is violated by the value constructor: the exponent has the wrong sign, so the activation grows without bound away from `mu` instead of decaying.
* `C69_extract_empty_undefined`: C69, limit of validity: for an empty state trajectory the loop bound wraps around and the call is undefined.
* `C70_violated`: C70 is violated: the controller is evaluated at time 0 whatever the current time. A time-varying feed-forward `u(t) = t` acting on a double integrator at time 1 has no effect.
* `C73_clone_violated`: C73 is violated by `clone`: copying any discretiser is undefined behaviour.
* `C73_set_type_violated`: C73 is violated by `setIntegrationType`: between plain types it has no effect at all, whatever the integrators do; the integrator built earlier keeps being used.
* `C76_shift_violated`: C76, violated also in value: with a time shift the numerical gradient is taken at a time shifted twice, so for a time-varying cost it misses the reported gradient altogether.
* `C76_state_violated`: C76, violated: calling the numerical gradient changes the object. For every cost function with at least one state and every positive step, the current state afterwards differs from the one before (its last component is perturbed).
* `C77_barrier_violated`: C77, violated: cloning a state barrier term forgets its time activation. For every term whose activation is not the constant default, the clone's differs.
* `C77_simple_terminal_violated`: C77, violated: a clone taken after setting the current state does not report the terminal cost of the original.
* `C78_asymmetric_violated`: C78, violated: with a weight that is not symmetric there is a point where the reported gradient is not the gradient of the reported cost.
* `C78_reference_violated`: C78, violated: a new reference state is not in force until the point is set again.
* `C79_new_violated`: C79, violated: a barrier term made from its bounds reads outside its (empty) barrier array at every state.
* `C80_linearisation_time_violated`: Between multiples of the step the linearisation belongs to another time than the dynamics: for the scalar time-varying system `x⁺ = x + dt t x` the derivative is not that of the dynamics.
* `C80_measurement_time_violated`: The scalar measurement `x + t`, perfectly predicted at time 1, still moves the estimate.
* `C81_upper_violated`: A constraint that lists a position above the diagonal makes the container read beyond the stored values.
* `C82_linear_violated`: C82 is false with piecewise-linear controls: evaluating any path constraint reads outside the time grid at the last grid point.
* `C84_violated_stages`: C84 violated: `configure` with another step keeps the number of stages, so the horizon the solver works on, `getTimeHorizon()`, is no longer the one that was set: here 10 instead of 1.
* `C84_violated_stale_stamps`: C84 violated: whenever the new step and horizon give the same number of stages, the time stamps stay those of the old step.
* `C85_violated`: C85 is violated whenever the horizon is rounded down to a multiple of the sampling time: then some joint has not reached its target in the last sample.
* `C86_violated`: C86 is violated: a pose constructed from an Eigen quaternion with quaternion storage requested stores Euler angles, and returns the quaternion only up to conversion to Euler angles and back.
* `C87_violated`: C87 is violated: given a linear system, a control trajectory that is too short is read outside its bounds before its length is checked.
* `C88_violated`: C88, negated for the constructor without gain, documented as "assuming unit amplification": at natural frequency 10 the output settles at 100 times the command.
* `C89_violated`: C89, negated: the tolerance is not the distance allowed between the positions. With the target at the origin, no other position is accepted, however small the error and however large the tolerance; with a target at distance 1000 and the default tolerance 1e-4, an error of 0.1 (a thousand times the tolerance) is accepted.
* `C91_last_violated`: C91, negated at the last stage: interpolating from position 0 to 2 in two stages with a series-elastic actuator of stiffness 1, the last state should carry the torque 2 of its position; it carries 1.
* `C91_steady_violated`: C91, negated for second-order actuators: the steady-pose guess commands zero, so an actuator that carries the load 5 at rest starts to give way: the guess is not a motion of the system.
* `C92_violated`: C92, negated when two end effectors sit on the same link: only the force of the last one is applied, those before are lost.
* `C94_late_violated`: C94, limit: delays enter the statistics also while they are not measured, with the clock's reading in place of a duration. Measuring is switched on after one iteration at system time 1000; the largest delay reported is then 1000 seconds, although the only iteration measured took 2.
* `C96_violated`: C96 is violated: for a system whose next state does not depend on the current one, the filter ignores every measurement, although prediction covariance 1 and measurement noise 1 (plus regularisation) call for a gain of about one half.
* `C97_violated`: C97 is violated: a strategy set after construction never decides a horizon, whatever happens to it. From then on resets and new settings reach only that unused strategy, so that they no longer have an effect.
* `C98_cold_violated`: C98 is violated with cold starts as well: whatever policy is being executed, the state is predicted with the initial guess.
* `C98_warm_violated`: C98 is violated: the state is predicted with the warm start, from which the stages up to the end of the window have already been removed. With a delay of one second the plant stays at 0 under the policy it is executing, but the state handed to the solver is 1.
* `C99_cold_violated`: C99 is violated with cold starts: the base class's handler does not say how much it truncated, and the stamp is computed from an uninitialised variable.
* `C101_replacement_violated`: C101 fails when constraints are replaced by an empty container: the setters are then not called and the constraints of the old container stay in the subproblem.
* `C101_unchecked_violated`: C101 fails without the hypotheses that the check leaves out: only the last component is compared with the size of the vector, so that an earlier one beyond it is read and written out of bounds; likewise two constraints on the only component of a one-dimensional vector, which pass the check.
* `C102_first_iteration_violated`: C102 fails in the first iteration: the container still has the second to last state, so the subproblem is told that the last state 5 needs no correction although it violates `x ≤ 2`.
* `C104_appearing_bound_violated`: C104 fails if a bound that was absent becomes finite: it stays masked.
* `C104_fewer_stages_violated`: C104 fails for fewer stages than before: the last stage, which has no input, keeps the input bounds of the stage that was there.
* `C104_moved_violated`: C104 fails if the arrays of the problem move because it gets more stages: HPIPM is given pointers to where they were.
* `C104_second_problem_violated`: C104 fails for a second problem object with as many constraints: the bounds of the first one are used.
* `C104_twice_violated`: C104 fails if a problem is set twice: the absent upper bound was replaced by zero in the problem and counts as a bound the second time, after stage zero.
* `C107_final_time_violated`: C107 does not hold for final costs that depend on time: the final cost is evaluated at time zero. With the time as final cost and no running cost the reported cost is zero for every grid.
* `C107_stale_weights_violated`: C107 does not hold after the horizon has been changed: the weights stay those of the grid at construction, so that a running cost of one still adds up to the old horizon.
* `C108_ms_ilqr_violated`: C108 does not hold for iLQR with multiple shooting: the policy combines the new states with the feed-forward control for the old ones, so at the predicted state it lacks the feedback part of the solution, and it is off by the same amount at every other state.
* `C111_derivative_violated`: **C111, violated.** For the Jacobian `[1, t]` at `t = 0` the functions documented as "the time derivative of right inverse" and "the time derivative of the null space projector" return matrices that are not those derivatives.
* `C112_mixed_violated`: **C112, violated by mixing the inverses.** `JdagerSVD()` and `JdagerLDLT()` share one cache: after a call of `JdagerSVD()`, `JdagerLDLT()` returns the unweighted inverse, and `P()` no longer removes forces that act through the Jacobian (`P W Jᵀ ≠ 0`).
* `C118_terminal_violated`: C118 is violated at the end of the horizon: a roll-out whose terminal state is NaN is reported as success.
* `C119_instances_violated`: C119 is violated by the direct access to the nonlinear systems (`getNonlinearSystemsInstances`): every thread's discretiser works on its own clone, so in-place changes of the instances never reach the roll-out, although the instances returned are the changed ones.
* `C119_switch_violated`: C119 is violated when `configure` switches the sensitivity integrator on or off: the solver keeps the kind of sensitivity computation it was created with, but runs it with the step meant for the other kind. Switching on after creation gives the approximation of a step of length `dt / K_sim` although the roll-out makes `K_sim` of them; switching off gives `K_sim` integration steps of length `dt`.
* `C119_time_varying_violated`: C119 is violated when `configure` changes `timeVaryingDiscretization`: the sensitivity integrator keeps the value it was created with.
* `C120_const_violated`: C120 is violated with constant sensitivities (`timeVaryingDiscretization` false, the default) on nonlinear systems: for `ẋ = x²`, two Euler sub-steps of length 1 from `x = 1`, the derivative of the roll-out is 15 but the answer is `A = 9`.
* `C120_time_violated`: C120 is violated for time-varying systems with several sub-steps: the sensitivity integrator evaluates the Jacobians of stage `n` at time `n dt / K_sim` instead of `n dt`, for all sub-steps. For `ẋ = t x`, two Euler sub-steps of length 1 and stage 1 the roll-out map is `x ↦ 12 x` but the answer is `A = 4`.
* `C121_base_link_violated`: **C121 violated: end effectors on the base.** For link 0, the base itself, the look-up writes the identity to the top right corner of a zero matrix. The transform from the base to itself is therefore not the identity, neither for forces nor for points; every force on an end effector that sits on the base is dropped, and its components come out as a torque.
* `C121_set_end_effector_violated`: **C121 violated: replacing an end effector.** `setEndEffector` has an empty body: the end effector handed over is ignored, and forces are still mapped to the old link.
* `C122_bias_z_violated`: **C122 violated: bias force about the joint axis.** The second component of the short version reads the product of inertia `xy` where it needs `xz`: for a unit mass at `(1, 1, 0)` turning at unit speed it is `-1` instead of `0`.
* `C127_QuadrotorWithLoad_violated`: **C127 (QuadrotorWithLoad), violated.** The joint space inertia matrix is not positive definite: the parameters of the two links are given about their centres of mass although the code takes them about the origin of the link.
* `C129_HyQ_violated`: **C129 (HyQ), violated.** At no position does `computeL` deliver a factor of the joint space inertia matrix, whatever the members contained, and `computeInverse` leaves entries of the inverse as they were.
* `C129_QuadrotorWithLoad_violated`: **C129 (QuadrotorWithLoad), violated.** At no position does `computeL` deliver a factor of the joint space inertia matrix, whatever the members contained, and `computeInverse` leaves entries of the inverse as they were.
* `C130_HyA_rounding_violated`: C130: the frames at the centres of mass of the HyA are not exactly where the description puts them. The generated code has -0.0002, -0.00036 and 0.00309 (in metres) for the first of them where the description has -0.000196, -0.000361 and 0.003091.
* `C132_HyQ_inertia_violated`: **C132 (HyQ), violated.** None of the 13 spatial inertias of HyQ is the one of the described link, whatever the memory contained. The trunk is 11.4 kg lighter than described, the hip assemblies and the upper legs are 0.5 kg heavier, and the moments of inertia of the lower legs are those of the description about another point.
* `C132_QuadrotorWithLoad_inertia_violated`: C132: the moments of inertia of all three links of the QuadrotorWithLoad are not those in its description. The largest moment of the body, 0.05, is about its z axis in the description and about its y axis in the code; the smallest one of link1 is about z in the description and about y in the code, that of link2 about x in the description and about z in the code.
* `C133_QuadrotorWithLoad_ee_link_violated`: C133 is violated: end effector 0 of the QuadrotorWithLoad is declared to be on link 1 (`CT_EE0_IS_ON_LINK`), but its frame is mounted on the frame that joint 1 turns, link 2.
* `C133_base_link_violated`: C133 is violated for link 0 of every robot, the base: the look-ups return matrices that are neither the identity nor invertible.
* `C139_shared_violated`: C139, negated for two end effectors on one link: the link receives the force of the second only, whatever force acts at the first.
* `C140_actuated_violated`: **C140.** The inverse dynamics of a base under actuation ignores the base acceleration it is given: when the uninitialised local variable of the code holds anything but the right base acceleration, the joint forces and a vanishing base force are *not* what it computes for the accelerations that these joint forces cause.
* `C140_ignored_violated`: It is even the same whatever base acceleration is given.
* `C141_copy_violated`: **C141.** Copying (or cloning) a system without a contact model - the state after construction - dereferences a null pointer, although its dynamics are well defined.
* `C142_half_axes_violated`: C142 is violated in the reading of the documentation (Ellipsoid.h:28, 53), where `A` is "the matrix of half axes": for the sphere with half axes 2 about the origin, the point (1, 0, 0), which is inside, is reported as outside.
* `C142_threshold_violated`: C142 is violated in the reading of the documentation (Ellipsoid.h:33-34), "a value =< 1 if point x is inside the ellipsoid, > 1 otherwise": for the unit sphere and the point (1.2, 0, 0), which is outside, the value is below 1.
* `C143_ground_violated`: C143 is violated for planes through the origin: for points of the ground `z = 0`, no estimate contains all of them, whatever the solver.
* `C144_weights_violated`: C144 fails for weights that differ between the axes of the orientation error: for the inverted pendulum and a goal with symmetric positive weights and a rotation as reference, away from the half turn, the returned gradient is zero although the cost changes when the joint moves.
* `C145_clone_violated`: C145 fails for copies: the copy of a position term that is switched off is on.
* `C147_failed_violated`: C147, negated for a failing design: the controller does not keep the gain of the last successful design. If the Riccati solver does not converge, the design returns false, but the controller now uses a gain computed from an uninitialised matrix; for the joint under load this may be any gain at all.
* `C148_skinny_violated`: C148, negated for an end effector with more velocities than the robot has joints, for instance linear and angular velocity of the foot of a leg with three joints: the singular values are written to a vector of the wrong size, and the manipulability is zero whatever the position of the robot.
* `C149_frames_violated`: C149, negated for desired velocities: they are compared component by component although the current ones are in coordinates of the current base and the desired ones in coordinates of the desired base. A base that is at the desired position and moves with the desired velocity in the world, but is turned, is accelerated.
* `C150_clone_violated`: C150 is violated by copies: for every function with a derivative that can be non-zero, a copy of the compiled object claims to have no non-zeros and returns values without positions.
* `C150_empty_violated`: C150 is violated by a function without outputs: after it has been set, the values of the function before it are still returned.
* `C151_activation_violated`: C151 is violated by terms with a time activation: an automatically differentiated term counts with its full value at every time, also where it is to be inactive; the same term added analytically counts with its weight.
* `C151_reload_violated`: C151 is violated by reading a configuration twice: the analytical terms are replaced, the automatically differentiated ones are kept, so that the terms of the file count twice.
* `C151_shift_violated`: C151 is violated by `shiftTime`: the shift has no effect on an initialised cost function, whereas an analytical cost function with the same term evaluates it at the shifted time.
* `C151_stale_violated`: C151 is violated by changes after `initialize`: a term added then is not part of the cost, a term changed then (for example given a new reference) keeps its old value, without any error.
* `C152_empty_violated`: C152 is violated by kinds without constraints: an initialised container to which only intermediate constraints were added raises an error when its terminal constraints are asked for, instead of returning no values; likewise the other way round.
* `C152_point_constructor_violated`: C152 is violated by the constructor with a state, control and time: adding a constraint to such a container dereferences a null pointer.
* `C152_time_violated`: C152 is violated by constraints that depend on time: they are evaluated at time zero, whatever time is set.
* `C153_second_copy_violated`: C153 is violated by copies of copies: the second copy evaluates the constraints of the original container, which was changed in between, rather than those of the copy it was made from; when the original has been destroyed, it reads freed memory.
* `C154_default_violated`: C154 is violated by the default constructor: when all objects are set but the horizon is not, `verify` reads an indeterminate value.
* `C154_linearisation_violated`: C154 is violated by `setNonlinearSystem`: the default linearisation remains that of the system before, which need not have the same contents, and `verify` accepts the problem.
* `C154_null_violated`: C154 is violated by null pointers: a problem made without system and linearisation dereferences the null pointer, although `verify` and the constructor of the linearisation check for it; so do the setters of constraints.
* `C154_uninitialised_violated`: C154 is violated by the constructors with constraints: containers given to them stay uninitialised, in contrast to the setters, and `verify` accepts the problem.
* `C155_constraints_violated`: C155 is violated by the functions of the solver for constraints: a solver that accepts constraints at construction throws in all of them. A problem with constraints can therefore not be set: the call throws after horizon, initial state, cost function and systems were replaced by those of the new problem, with the constraints of the old one still in use.
* `C155_reset_violated`: C155 is violated by `setProblem` with a problem without constraints: the constraints of the problem before stay in use.
* `C155_unverified_violated`: C155 is violated by problems that are not complete: the constructor does not call `verify` and dereferences null pointers for which `verify` throws.
* `C156_accessor_violated`: The accessors of the solver return the new cost function all the same.
* `C156_fixed_violated`: C156 is violated by all changes after the construction but those of horizon and initial state: whatever is called afterwards, including `changeCostFunction`, `changeNonlinearSystem`, `changeLinearSystem`, the functions for constraints and `setProblem`, the solver works with the systems, cost functions and constraints of its construction.
* `C157_large_violated`: C157 is violated for very large states: the dynamics returns zero, so that positions do not follow velocities and the matrices are not the derivatives.
* `C159_bounds_violated`: C159 is violated for intermediate bounds between initialisation and the first point set: they are empty, whatever the bounds of the containers, while values are there.
* `C159_terminal_violated`: C159 is violated for terminal constraints at times before the last mode: values and Jacobians are those at the point set when the last mode was active last, at first at zero, whatever state and control are set.
* `C160_alias_violated`: C160 is violated when one container is used for two modes: in the original the terminal constraints follow the point set in a phase of the other mode, in a copy they do not.
* `C160_copy_violated`: C160 is violated directly after copying: the copy answers with the container of the first mode, not with the active one of the original, and its bounds are those of the other one.
* `C162_aligned_violated`: C162 fails for poses that can be reached with the axes of the first and the third joint aligned: infinitely many configurations reach them, so a solver that is right and finds these reports a solution with a free joint – as the one of the HyA does (transform6d.cpp:2214-2261) – and the inverse kinematics reads the value of the free joint through a null pointer.
* `C163_hessian_violated`: C163 fails for exact Hessians: a solver constructed with exact Hessians and configured to do without goes on asking for them, but is no longer told how many entries they have.
* `C163_ignored_violated`: C163 fails for nine settings of IPOPT and one of SNOPT: the tolerances of the restoration phase and of acceptable points, the scaling method, print frequency and info string, the remaining derivative checks, the Jacobian approximation and SNOPT's scale option can be set (most are read from files), but nothing the solver is told depends on them.
* `C163_ipopt_strings_violated`: C163 fails for the string options of IPOPT: whatever happened before, configuring a solver with another kind of Hessian, linear solver or scaling than it was constructed with leaves the application without the value asked for; after a warm start also every derivative test other than "none" is refused.
* `C163_snopt_constructor_violated`: C163 fails for settings given to the constructor of the SNOPT solver: they have no effect, and solving without a further `configure` throws whatever warm starts were prepared.
* `C164_guess_violated`: C164 fails for problems without a guess: the starting point is memory that was never written.
* `C164_lambda_violated`: C164 fails for multipliers before the first solve: they are never given a size, so that a warm start of a problem with constraints reads outside of them.
* `C164_prepared_violated`: C164 fails for data prepared from the variables: if IPOPT returns another point than the one it asked about last, the problem holds the solution together with data of that other point, and evaluates its constraints with them.
* `C164_warm_start_violated`: C164 fails for warm starts: whatever a solve found, the next one starts at the guess that solve had started at, but with the multipliers of the solution, unless the user passes the solution as a new guess.
* `C165_failure_violated`: C165 fails for failures: `solve` returns true whatever SNOPT reports, and after a failure (any status but 1, 31, 32) the variables of the problem are the last point SNOPT tried.
* `C165_unsized_violated`: C165 fails for problems that never sized their constraint multipliers, as the inverse kinematics problem does not: a configured SNOPT solver copies from empty vectors.
* `C165_warm_start_violated`: C165 fails for warm starts: preparing one does not change any of the arrays SNOPT starts from. The states of variables and constraints it sets are overwritten by those stored in the problem, and the starting point is the initial guess.
* `C166_copy_violated`: C166 fails for copies: a system with such a controller cannot be copied.
* `C166_gains_violated`: C166 fails for `setAllPIDGains`: besides the gains it replaces the time step, the bound of the integral part and the limits of the command by their defaults. A joint limited to commands of at most 1 gets the command 20.
* `C167_discrete_violated`: C167 fails for discrete-time systems: the copy shares the controller with the original, so that a change of the control by way of the copy changes what the original does.
* `C167_last_action_violated`: C167 fails for `getLastControlAction` before the first evaluation of a system constructed without a controller: the member is not initialised.
* `C169_dangling_violated`: C169 violated: a copy of a linear system with generated code still refers to the system of the original; copying the copy when the original and its system are gone is undefined behaviour.
* `C169_initial_violated`: C169 violated: a linear system with generated code answers with zero matrices at the random point drawn at its construction, also when the user has turned the cache off (`ẋ = x`).
* `C169_parameters_violated`: C169 violated: after the user has changed the parameters of the system, the linear system goes on with the old dynamics, while a copy of it uses the new ones.
* `C169_time_violated`: C169 violated: for a system that depends on time the Jacobian returned is that at time 0, whatever time is asked for (`ẋ = t x` at time 1).
* `C170_copy_violated`: C170 violated: a copy of the generator has no recorded function, so that code cannot be generated from it.
* `C170_pattern_violated`: C170 violated: given a pattern that is right (the output depends on the second input only) the generated class stores the derivative in the place of the first input.
* `C171_no_steady_state_violated`: C171 violated: a small change does not mean that there is a steady state. For `x⁺ = x` without influence of the control and a state weight of half the tolerance the solver returns a result after one iteration, although every control leads to unbounded cost.
* `C172_rounded_violated`: C172, one entry is rounded: at no state is the matrix returned the derivative exactly.
* `C173_unstabilisable_violated`: C173 fails without the conditions, silently: success is reported for a system that no feedback stabilises and that stays where it is under the returned one. Neither the number of stable eigenvalues nor the block that is inverted is checked.
* `C174_tolerance_violated`: C174 fails for the tolerance of the code: for the system `ẋ = 1.0000009 x + u`, which can be stabilised, with the weights `1` and `10 ^ 13` the iterative solver stops after one step and reports success, whatever the permitted number of iterations; under the returned feedback motions diverge.
* `C174_unstabilisable_violated`: C174 fails for systems that cannot be stabilised: for the unstable system `ẋ = x` without input the solver reports success after one iteration, with every tolerance and every decomposition, although no gain brings the system to rest.
* `C175_stale_violated`: C175 violated: a new solver, given a guess that violates the constraints, rejects a step that lowers the merit -- the step removes the whole violation -- because its first line search takes the constraint errors of the guess to be zero; it stops after one iteration with the guess as solution, and reports success. (Calling solve once more finds the better solution: by then the errors have been computed.)
* `C176_armijo_violated`: The claim for the Armijo rule is false: its "expected decrease" uses the gradient of the running cost alone (the sums of `lv' rv` and `lv' R lv`) instead of the decrease of the quadratic model, and with the wrong sign. Here, with the default Armijo parameter `0.01`, the trajectory is not stationary and every step size up to one lowers the cost, but the search rejects them all, however many it may try, and the solver stops.
* `C177_default_weight_violated`: With the default weight zero of the gaps (`meritFunctionRho`, `NLOptConSettings.hpp:240`) the claim is false: here the trajectory has a gap of size one, five orders of magnitude above what the solver tolerates, and the linear-quadratic step closes it; but the infeasible guess costs less than any feasible trajectory. So the search rejects every step, however many it may try, the solver reports convergence and keeps the trajectory with the gap, while the recorded defects are set to zero.
* `C178_clash_violated`: **C178** fails for a class name that contains another placeholder. For the class name `NS1Model` in the namespace `core` the two files `NS1Model.h` and `NS1Model.cpp` are written, but the text inside them belongs to a class `coreModel`, and the source includes a header `coreModel.h` that does not exist.
* `C178_endless_violated`: **C178** fails for a class name that contains the placeholder for the class name (for example `LINEAR_SYSTEM_NAME_2`): whatever the other arguments, code generation never ends; nothing is written.
* `C179_activation_ignored_violated`: **C179, violated.** A mistake in a time window is not reported and switches the term on for ever: the file gives a start but no end, loading succeeds, and the term counts at every time, also before the start.
* `C179_activation_kind_violated`: **C179, violated.** A file in which the kind of a time activation is not one of the known kinds (here "always") is not rejected: the program dereferences a null pointer, because the check for it comes after its use.
* `C179_barrier_violated`: **C179, violated.** A barrier as time activation is accepted, but it makes the term zero at every time and state, whatever bounds the file gives.
* `C179_linear_violated`: **C179, violated.** A file with a linear term is loaded without an error, but the constant of the term is neither in the file nor set by the constructor: evaluating the loaded cost function reads an uninitialised value, for every state, input and time.
* `C179_name_violated`: **C179, violated.** The name that a file gives to a smooth absolute value is dropped: after loading, the term cannot be found under its name.
* `C180_check_violated`: **C180, violated.** The check of the settings accepts a negative number of threads; with it, the solver creates empty arrays of constraints and reads behind their end.
* `C180_choices_violated`: **C180, violated.** The names are read in one block that ends silently at the first missing one: this file selects iLQR and the interior-point solver, but does not mention the integrator; it is loaded without an error, and the solver still runs Gauss-Newton multiple shooting with the Riccati solver.
* `C180_line_search_violated`: **C180, violated.** The section of the line search is dropped without a message if it does not name the type, as in the configuration file delivered with the inverted pendulum example: whatever the section says, all line search settings keep their values.
* `C180_step_limit_violated`: **C180, violated.** A line search section without the debug switch is read in part: type, first step and reduction are taken, the largest step written in the file is not.
* `C181_section_violated`: **C181, violated.** The name of a section as all other settings take it, without a dot at its end, makes the estimators read the keys `filterC`, `filterQ`, ... at the top of the file instead of `C`, `Q`, ... in the section `filter`. Without such keys, all matrices of the observer and of the extended Kalman filter are zero, whatever the section says, and no error is reported.
* `C181_steady_state_violated`: **C181, violated.** No name of the section serves the settings of the steady-state Kalman filter: without a dot at its end the initial state is zero, with a dot the number of iterations is the default, whatever the section says.
* `C181_unscented_violated`: **C181, violated.** The parameters of the unscented Kalman filter are read as Booleans: from any file, only the values zero and one can be loaded. A file that gives another number for one of them, such as the usual `beta = 2`, is rejected. (`hb`: a text read as a Boolean is, if it is a number, zero or one.)
* `C182_defects_violated`: C182, defects violated: setting the measured state sets all defects to zero, also those of the shots that were rolled out in the preparation and are not rolled out again. The norm of the defects that is reported can be zero although the trajectory the approximation was made around has a gap, here of six.
* `C182_limits_violated`: C182, limits violated: the box constraints are made relative to the controls before the first shot is rolled out, which changes them if the shooting is closed loop, and they are not made again afterwards. With a guess of zeros, unit gains, a limit of one on the control and the measured state five away from the guess, every change of the first control that the quadratic program admits leads to a first control outside the limits. (The solver that reads the boxes does nothing in its preparation, NLOCBackendBase-impl.hpp:1285-1288, so the roll-out of the first shot follows the approximation directly.)
* `C182_short_horizon_violated`: C182, short horizon violated: if the horizon is shorter than a shot — the settings are accepted, and the horizon shrinks towards the end of an optimal control problem with a fixed final time — the iteration accesses the stages behind the end of the horizon, for every problem, guess and measured state.
* `C183_violated`: C183 violated: for any number of workers and every problem with two stages, a roll-out followed by a linear-quadratic approximation can end with the matrices of the linear-quadratic problem as they were before, whereas the serial backend stores those of the linearisation about the trajectory: a worker that has not left the first phase counts the indices of the second one as rolled out.
* `C184_accepted_violated`: **C184 is violated (settings that pass the check are refused).** Settings that pass the check but ask for an optimized time grid or for the integrator RK5 make the constructor throw.
* `C184_compiler_violated`: **C184 is violated (unknown compiler).** A compiler that is not known is not an error: loading succeeds and the compiler of before is used.
* `C184_configure_violated`: **C184 is violated (configuring again).** Whatever settings are given to `configure` of a multiple shooting solver, the next solve uses the NLP solver and the options of the construction.
* `C184_exit_violated`: **C184 is violated (unknown integration type).** An integration type that does not exist ends the whole program with the exit code of success instead of an exception.
* `C184_frequency_violated`: **C184 is violated (print frequency).** The entry `print_frequency_iter` of the section of IPOPT is not read: the key that is looked up has an underscore at its end.
* `C184_limit_violated`: **C184 is violated (large numbers).** An iteration limit of `2^31` or more, which is read as an unsigned number, becomes negative.
* `C184_unknown_solver_violated`: **C184 is violated (unknown NLP solver).** A solver type other than IPOPT and SNOPT is loaded and the solver is created; the check would have refused the settings, but its result is not used, the message says that the program exits, but it does not. Solving then dereferences a null pointer.
* `C184_wrapped_solver_violated`: **C184 is violated (solver type reduced modulo 256).** A file that asks for the solver type 256, which does not exist, is loaded with the type of IPOPT, and the check accepts the settings.
* `C185_guess_violated`: C185 fails for the guess of the user: a call that retries with randomisation and finds no solution leaves the random point of its last trial as the guess, and the next call starts from that point.
* `C185_limits_violated`: C185 fails for the joint limits: what IPOPT reports is ignored. If it stops, say because of the limit on iterations, at a point that has the required pose but violates a joint limit, this point is returned as a solution and success is reported.
* `C185_shared_violated`: C185 fails if an evaluator is given to two problems: from then on the costs and gradients of the first are those at the variables of the second, whatever its own variables are.
* `C186_response_violated`: **C186, response violated.** When the rod is horizontal (second joint at a right angle), more thrust along the z axis of the body accelerates the body *against* the thrust: one newton more takes 1/489.375 m/s² away from the acceleration along that axis, whatever the pose and the velocities. The inertias of the links are given about their centres of mass where the code expects them about the joints.
* `C187_default_violated`: C187 fails for a term made by the default constructor: evaluating or copying it dereferences a null pointer.
* `C187_failed_load_violated`: C187 fails after a file that cannot be loaded completely: `loadConfigFile` throws, and the term is left with the position reference of the file and, in what it evaluates, the end effector and the weights it had before.
* `C187_matrix_violated`: C187 fails for a rotation matrix handed to a constructor: it is accepted, as Euler angles. With the identity the term asks for an orientation turned by one radian about x.
* `C187_orientation_violated`: C187 fails for files without an orientation: although the code means to reject them, the file is accepted, and the term asks for the orientation of the world frame.
* `C187_override_pendulum_violated`: The effect for a class of which the state has the velocity first: with weight 1 on the orientation and the world frame as reference, in the state with velocity 0 and position `π` the term returns 8, the value for position 0; after `setup` it returns 4, which is right.
* `C187_override_violated`: C187 fails for classes that override `setStateFromVector`: whatever the override `e.sv` is, until `setup` is called once more the value is that of the term without the override.
* `C188_default_violated`: C188 violated, floating base: `initialize` called with its default arguments for the guess throws, in every state and for every horizon.
* `C188_interpolation_violated`: C188 violated: with more points than stages the guess is cut, so the last state shown is short of the final position in every joint that moves.
* `C188_rejected_violated`: C188 violated: after a successful initialisation, one with a longer horizon and too few points throws, but the front end then shows the new number of stages with states, controls and gains that were never given a value (`none`).
* `C188_time_violated`: C188 violated: reading the time array that either front end returns is undefined behaviour, in every state: the array belongs to an object that no longer exists.
* `C189_durations_violated`: C189 violated: the sensitivities with respect to the durations of the shots, which the class declares and returns, are empty after every history of calls.
* `C189_no_logs_violated`: C189 violated: computing before any logs were set dereferences a null pointer.
* `C189_rk5_violated`: C189 violated: for the third integration scheme of the settings the process is ended (with status zero) when the derivatives for the initial state or the first node are asked for; those for the second node throw.
* `C190_rounding_violated`: **C190, violated by rounding.** The first link of the double inverted pendulum is described as a flat disc; a product of inertia of `-2.2e-11` left over from the rotation of its frame makes it a body that cannot exist.
* `C190_violated`: **C190, violated.** The link of the inverted pendulum, the last link of HyA and both links of the load of the quadrotor are no bodies that can exist: no distribution of masses, none of them negative, has the spatial inertia the dynamics use. One moment of inertia of the pendulum about its centre of mass exceeds the sum of the other two; those of the load are smaller than what its mass at its centre of mass contributes.
* `C194_HyA_violated`: **C194** is violated by the shipped class for the inverse dynamics of HyA: with 12 state variables and 6 weights, every call of `hessian` reads outside of the weights, whatever the members are.
* `C194_hessian_violated`: **C194** is violated: for every number of inputs and every other number of outputs there is a function, of which the library records the Hessian, such that the generated class does not return the Hessian: the first call reads outside of its arguments, or returns something else.
* `C195_actuator_violated`: C195 fails for `FixBaseFDSystemSymplectic` with actuators, which calls itself second-order: with an actuator of which the position changes by twice its velocity, for any robot with one joint, the entry returned is 1, although the derivative is 2.
* `C195_null_violated`: C195 fails for the null pointer: it is used before it is checked, so that nothing is thrown.
* `C195_type_violated`: C195 fails where the type of a system is wrong: the first half of the state is not differentiated.
* `C197_error_both_violated`: C197, both kinds of deviation: with the default tolerances a step with an error within them is refused; with larger ones a step with an error beyond them is accepted.
* `C197_error_violated`: C197, error of a step with Eigen 3.3 and newer, where adding a number to a vector multiplies by it: a step is accepted exactly if its error is within the product of both tolerances and the size, and no component rests at zero; if one does, its error is not a finite number, although an error of zero is within all tolerances.
* `C197_own_violated`: C197, own steppers: with the default type and with RK4CT, integration with a fixed step size is promised but an exception is thrown.
* `C197_tolerances_violated`: C197, tolerances that were set have no effect: after any history that ends in setting tolerances, the methods ODE45 and RK5VARIABLE run with `1e-8`, and the Bulirsch-Stoer method with the tolerances of the library.
* `C197_unsupported_violated`: C197, unsupported types: the constructor refuses them, but changing to one of them does nothing, without an exception.
* `C198_copy_violated`: C198, copies while the integrator they come from lives: the final state is right, but no point is recorded.
* `C198_dangling_violated`: C198, copies after the integrator they come from was destroyed: undefined behaviour.
* `C199_controller_violated`: C199, a controller set later: once the caller gives the system another controller, the models made of it before ignore the control they are given and advance with that controller.
* `C199_two_models_example_violated`: C199, the given control does matter: two models of a scalar system with input; the first is asked to advance with control 5 and with control 7 and moves as if the control were the 1 that was given to the second.
* `C199_two_models_violated`: C199, two models of a system: a model made before another model of the same system ignores the control it is given and advances with the control last given to the other one, zero if there was none.
* `C200_lengths_violated`: C200 fails so that arrays do not fit together: a law with two nodes swapped with one of three nodes has two times and three gains.
* `C200_times_violated`: C200 fails for all laws on different times: neither object has the law which the other one had.
* `C201_mpc_violated`: Under model predictive control, which gives a new guess and a new initial state before every iteration (MPC-impl.h:170, 198, 200), the summary grows by one row per call and all rows have the number 0.
* `C201_restart_violated`: After a restart the summary is never that of the current solve: it keeps the rows of all solves before.
