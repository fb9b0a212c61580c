# Verification design: jrl-umi3218/Tasks in Lean 4

This directory holds a Lean 4 model of the Tasks library (source read as text from `/repo`) and
machine-checked theorems about it.

* `properties.jsonl`: the properties (C01...), in API terms.
* `lean/Verif/Model/*.lean`: the model.  Every definition cites the file and lines it models.
* `lean/Verif/Proofs/*.lean`: helper lemmas.
* `lean/Verif/Props/*.lean`: for each property a small specification (`namespace Spec`), the property
  theorems (`Cxx_...`), concrete cases meeting their hypotheses (`example`) and, where the code
  violates the property, a proved counterexample.
* `MANIFEST.json`: which theorem settles which property.
* `seeded/LOG.jsonl`: mutation tests of the theorems.  How to read it:
  * `detected` means that a proof of a property theorem, or of a lemma it uses, no longer compiles for the
    edited model.  That the statement became false was not shown separately; some edits may only have upset
    a proof script.
  * `first_failures` is what the compiler reported.  `theorems_failed` is derived from it: the property theorems
    that use a declaration that failed, directly or not, in the dependency graph of the unedited project.
  * Generated edits (ids with four digits) were built only up to the first property theorem reached in this way,
    so their list can be too short, and their `claims` and `claim_broken` were filled in from the
    theorems reached (the first three titles), not predicted.  Edits written by hand state the claim beforehand; the `BF` ones were
    also built only up to the first failure, so the stated claim need not be among those reached.
  * Generated edits after which a model file itself does not compile (about a third, mostly ill-typed) have no line.
  * Edits with `detected: false` are kept, with a note on why nothing failed.

A theorem whose name ends in `_partial` proves less than the property says.  The manifest note says
what is missing, and in each such case the missing part is shown to be false of the code by a theorem
of the same property (`..._counterexample`, `..._ub`, ...), unless stated otherwise.

## 1. Modelling conventions

* **Numbers.** `double` is an arbitrary linearly ordered field `K` (a commutative ring where that is
  enough): the theorems hold for the rationals, the reals, ...  Trigonometry and calculus use the reals.
  Rounding, overflow and NaN of floating point are NOT modelled (C93 shows that handing rows and bounds to
  the solver involves none, C94 bounds the effect of errors in the rows and bounds); an operation whose result is infinite
  or NaN (division by zero, square root of a negative number, `inf - inf`, `0 * inf`) is the outcome
  `ub`.  Values the code lets be infinite (bounds) use `Ext K = -inf | fin x | +inf`.
  `std::sqrt` is a parameter with the property `Spec.SqrtOK` (non-negative root of its argument),
  `std::round` a parameter.
* **Eigen vectors and matrices** (`Vec`, `Mat`) carry a run-time size and an entry function.  Every
  `block`, `segment`, `head`, `operator()` checks the size; a violation is `ub` (with Eigen's
  assertions compiled in it is an abort, without them undefined behaviour).  `resize` leaves
  unspecified contents: a `junk` parameter, over which the theorems quantify.
* **Outcomes.** `Out a = ok a | ub | throws e`.  `ub` covers out-of-range accesses,
  `vector::erase(end())`, `operator[]`/`back()` out of range, Eigen size mismatches, failed assertions (all of
  them, except that `BilateralContact` with more frames than points behaves as without assertions),
  reads of uninitialised memory used as sizes, and the non-finite results above.
* **Integers.** `int`/`size_t` are `Nat` (`Int` where the code uses -1); overflow is not modelled.
* **Object identity.** `Constraint*`, `Task*` are elements of a type with decidable equality; virtual
  methods are read through snapshots of their results, or are arbitrary functions on a world state.
* **Loops** are folds that stop at the first `ub`/exception (`forRange`, `forEach`).

## 2. Trusted base

1. Lean's kernel (Lean 4.33.0) and the axioms listed per theorem in section 6: at most `propext`,
   `Classical.choice`, `Quot.sound`.  No own axiom, no `sorry`, no `native_decide`/`bv_decide`.
2. The faithfulness of the hand-written model to the cited lines.
3. The behaviour of external code:
   * **SpaceVecAlg**: `PTransform` is `(E, r)` with `X * Y = (E_X E_Y, r_Y + E_Yᵀ r_X)`,
     `X⁻¹ = (Eᵀ, -E r)`; its action on motion and force vectors and the motion cross product are the
     documented formulas (`Model/Geometry`).  `rotationError`, `rotationVelocity`, `transformError`,
     `transformVelocity` are arbitrary functions, except in C77, C78, C81, C86, C118, C119 and C120, which use their formulas over the
     reals (`Model/Rotation`; `RotX`, `RotY`, `RotZ` of C86 in `Model/SvaRot`): `rotationVelocity(E) = vee(E) θ / (2 sin θ)`, `θ = acos((tr E - 1) / 2)`. `normalize`,
     `FromTwoVectors`, `inverse` and `matrix` of Eigen are in `Model/TrackErr`.
   * **RBDyn**: body numbering `succ[i] = i`, one body per joint, parents before children;
     `jointIndexByName`, `bodyIndexByName` are unchecked lookups (`ub` when absent);
     `paramToVector`, `vectorToParam`, `fullJacobian`, `Jacobian::jacobian/bodyJacobian/velocity/
     normalAcceleration` follow RBDyn's documented formulas (`Model/Jacobian`, `Model/Kine`), so do
     `computeCoM` and `CoMJacobian` for the CoM tasks (`Model/CoM`), `computeCentroidalMomentum`,
     `computeCoMVelocity` and `CentroidalMomentumMatrix` (`Model/Momentum`), `imagePointJacobian` and
     `imagePointJacobianDot` (`Model/Visual`); `depthDotJacobian`, `getAngleAxis`, `poseJacobian` are
     arbitrary functions.  `Jacobian::jacobianDot/bodyJacobianDot`, `CoMJacobian::jacobianDot` and
     `CentroidalMomentumMatrix::matrixDot` are arbitrary matrices; C66 and C79 assume where needed that they are
     the time derivatives of the corresponding Jacobians.
     Inertia matrices, bias vectors (`ForwardDynamics`), the CoM Jacobians of the
     constraints and forward kinematics are arbitrary values, constrained by explicit hypotheses where a theorem needs them;
     C95 derives the hypotheses on the motion (`Evolves`) from the formulas of `Joint::pose`, `Joint::motion`,
     `forwardKinematics`, `forwardVelocity` and the constructor of `Jacobian` (`Model/Forward`; no planar joints).
     C97, C98 and C99 assume the formulas of `computeH` and `computeC` (`Spec.Dynamics` in `Proofs/Dynamics`):
     `H = Σ Jᵀ I J`, `C = Σ Jᵀ (I a + v ×* I v)` with `mbc.gravity` as an upward acceleration of the base; for a free
     joint `motionSubspace` is the identity (`Spec.FloatingBase`).
   * **sch-core**: distance queries are arbitrary values with hypotheses (witness points realise the
     distance).
   * **eigen-qld, eigen-lssol**: arbitrary functions from the matrices they are given to a result and a
     success flag; optimality is a hypothesis where used.
   * **Eigen, libstdc++**: the semantics of the operations used, as above.

## 3. What is modelled

| file of /repo | modelled in | not modelled |
|---|---|---|
| `src/QPSolver.cpp`, `src/Tasks/QPSolver.h` | `Layout`, `Registry`, `Solver`, `NormalAcc`, `Throwing` | timers, the printing of messages |
| `src/QPSolverData.cpp` | `Layout`, `NormalAcc` | |
| `src/GenQPSolver.cpp`, `src/GenQPUtils.h` | `Fill`, `Solver`, `Diag` | stream formatting |
| `src/QLDQPSolver.cpp`, `src/LSSOLQPSolver.cpp` | `Fill`, `Diag`, `Solver` | the numerical solvers |
| `src/utils.h` | `Utils` | |
| `src/QPContacts.cpp` | `Contacts`, `Geometry` | |
| `src/QPMotionConstr.cpp` | `Motion` | |
| `src/QPConstr.cpp` | `Limits`, `Collision` (also CoM planes), `Gripper`, `BoundedSpeed`, `Image`, `Heap` (copies of `ImageConstr`) | descriptions beyond which object is named |
| `src/QPContactConstr.cpp` | `ContactConstr` | |
| `src/QPTasks.cpp` | `SetPoint`, `Selector`, `Torque`, `Posture`, `Multi`, `ForceTask`, `Kine`, `RelDist`, `CoM`, `Momentum`, `Visual`, `Wrappers` | |
| `src/Tasks.cpp` | `Kine`, `Rotation`, `Posture`, `Multi`, `RelDist`, `CoM`, `Momentum`, `Visual`, `Heap`, `JacDot`, `NoAcc`, `Wrappers`, `Getters`, `TrackErr` | `jacDot()` of `GazeTask` and `PositionBasedVisServoTask` (never written) |
| `src/Tasks/Bounds.h` | `Motion`, `Limits` (as nested lists) | |
| `binding/python/tasks/qp/qp.pyx` | `Binding` (how the overload of a call is chosen, and with which arguments), `PyLife` (what deletes a C++ object, and what the solver and the tasks point to), `PyExc` (what becomes of a C++ exception), `PyCtor` (constructors with one overload, and which Python objects have no C++ object), `PyValue` (attributes of contacts and data of the solver: copies or views), `PyAcc` (accessors of the tasks, `alphaDBegin`/`lambdaBegin`, `torque()`), `PyId` (`ContactId`: construction, attributes, comparisons, and lists of identifiers), `PyPosture` (`PostureTask`, `JointStiffnessVector`, `JointGainsVector`, names of `JointsSelector`) | other constructors with lists of numbers or names, accessors of the contact and multi-robot tasks and of the tracking and trajectory tasks, vectors as Python sequences, pickling |
| `binding/python/tasks/tasks.pyx` | `Getters` (attributes of the bounds), `PyCtor` (constructors of the tasks without a solver), `PyAcc` (accessors of the tasks) | constructors of `PostureTask`, `CoMTask`, `MultiCoMTask`, `OrientationTrackingTask`; accessors of `PostureTask` and of the multi-robot tasks; `update`, `updateDot` |
| rest of `binding/`, `tests/` | | not modelled |

Simplifications common to several files: deprecated overloads and getters that return what was last computed are left out; a task or
constraint is one robot's data plus the solver data it is given; messages are represented by the object
and the line they name.

## 4. How the properties are proved

| id | technique |
|----|-----------|
| C01, C02 | induction on robots/contacts, loop invariant = prefix sums |
| C03, C04 | refinement of the registries to ordered sets, induction over histories of calls |
| C05 | checked writes: induction over the fill loops, invariant over histories of control steps |
| C06-C09 | the lines written are the concatenation of the active lines; block sums |
| C10 | positive semidefiniteness closed under block sums |
| C11-C13 | loop invariant of `setDependencies`; algebra of the reduction x = M y; invariant over histories |
| C14, C15, C55 | exact outcome of `solve` for arbitrary objects and engines, induction over histories |
| C16, C17 | decision logic over all lines |
| C18 | order axioms |
| C19-C23 | real trigonometry, cones closed under non-negative sums, error branches |
| C24-C28, C48 | linear algebra on blocks, state machines over updates of any length |
| C29-C32, C56 | ordered-field algebra, invariants over executions |
| C33-C39, C57 | exact rows in every reachable state, invariants over executions |
| C40-C42 | exact rows in every reachable state, refinement of the registry |
| C43-C50 | quadratic-form identities for every x and every history of calls |
| C51-C53 | Jacobian formulas and motion-vector algebra, loop invariants |
| C54 | induction over joints in parent-first order |
| C61 | sums over the bodies of the results of C58; invariant over the calls for weights and inertial parameters |
| C62 | the reached target (C43) gives a linear differential equation for the error (C58, C59, C61): explicit solution, and a Lyapunov function for general gains |
| C63 | rows of C40 and the derivative of body velocities (C58) give the rate of the relative velocity; two rigid frames with equal velocities stay equal (constant squared distance of their axes and origins) |
| C64 | sums over the bodies of the dual Plücker transforms, uniqueness of derivatives for the particles, the reached target (C43) gives a first order equation |
| C65 | derivatives of the projection and of the interaction matrix along a moving frame; two points with equal image speed and opposite depth rates refute every depth-rate function |
| C66 | invariant over histories of updates; the drift from C58 when `updateDot` is called; every vector is reached by some initial memory |
| C67 | two runs of the same update compared, including those that fail |
| C68 | rows of C25 as linear maps of the variables, column count for several robots |
| C69 | the update of C45 composed with one held period; last three periods computed exactly, floor of the duration |
| C70 | objective of C49 + calculus of C61; explicit solutions, energy bound, explicit motion as counterexample |
| C71 | optimality of both results (C55), exchange argument; two concrete steps as counterexample |
| C72 | optimality of C55, sum of terms each at its minimum |
| C73 | parallelogram identity for the objective on the segment between the two results; concrete semidefinite step as counterexample |
| C74 | C72 at every time turns the solver into the closed loop of C62 |
| C75 | invariant by induction over control steps, each through `Solved` (C55) and the bounds of C31; concrete run as counterexample |
| C76 | composition of C55, C01/C02, C20, C24–C26; static equilibrium as example |
| C60 | algebra for the update, calculus for the rates; the square root is a parameter specified by its square |
| C58, C59 | calculus over the reals: derivatives of Plücker transforms of moving frames, induction along the joint path |
| C79 | the product rule with C51, C58, C61, C64 and uniqueness of derivatives; two-joint motion as counterexample |
| C80 | differential inequalities (`Proofs/Barrier.lean`) fed by the rows of C35, C38 and the derivatives of C51, C61; `1 + exp(-t) cos t` as counterexample |
| C81 | the rows of C40 as differential equations for the relative velocity (`slipVel_deriv`), Lyapunov function of `Proofs/RotLoop.lean` for two moving frames, linear decay of `Proofs/PosLoop.lean` |
| C82 | the loop of C75 with the position advanced by a mean of the old and new velocities: invariant `mean_inv` (distance beyond the security distance non-negative, velocity small against it, damping chosen at the entry compatible with the step); for `JointLimitsConstr` the bound rewritten as the end point of the exact motion |
| C83 | from the same invariant a velocity that every bound accepts (`pick_above`, `pick_below`); empty bounds exhibited through the solver for weak accelerations and for `JointLimitsConstr` |
| C84 | every registered line is a line of the assembled problem (`Qld.assembled_rows`, `Lssol.assembled_rows`), so an error on the latter is one on the former; free variables are copied by the expansion (`fullX_near`) |
| C85 | the invariant of C75 with the distance allowed to be negative: the damper contracts a violation by `off dt / R` per step and the solver adds at most `eps dt^2` |
| C86 | `ContactData::update` computed in the world frame with the documented formulas of `sva::transformError`, `RotX`, `RotY`, `RotZ`; invariant: the stored free directions are those of the selection matrix read by `updateNrVars` |
| C87 | each row gives the residual of its differential equation (`stored_rowGap`), then Gronwall by comparison with an explicit majorant; `turn_drift` and `place_drift` (Proofs/FrameDrift) integrate velocity errors to pose errors |
| C88 | `update_lines_tol`: a line with tolerance is a torque limit with tolerance; generators are unit vectors, so weights moved by at most `eps` move the force by at most `eps` each |
| C89 | optimality against the given admissible point, completing the square (C43) |
| C90 | C89 bounds the disturbance of the critically damped system; two applications of the mean value theorem with `exp (omega t)` as multiplier (Proofs/Perturbed) |
| C91 | the row as a statement about the true distance of the balls (closest points = centres minus radius times normal; derivative of length and direction of a vector), then a damper barrier that tolerates an error and needs the row only while the distance is positive (Proofs/Balls) |
| C92 | the barriers of C80 shifted by the error; rows as equations for their slack (Proofs/BarrierNear); explicit solutions that use up the tolerance |
| C93 | loop rule "each step writes its block below and leaves the rest" over an arbitrary type (Proofs/Copy), no algebraic law used |
| C94 | perturbation of rows and bounds; the rounded step realised as a step on the exact constraints with a larger tolerance, then C85 and C92 |
| C95 | derivatives of the joint transforms (rotation about an axis, quaternion), composition of moving frames, induction over the kinematic tree; recursion of C54; then C58, C59, C62 |
| C96 | RBDyn's loop over a path computes the entry of the solver's recursion (induction over the path); uniqueness of the recursion for the loops over all bodies |
| C97 | rows of the base = resultant of all body wrenches (Plücker pairing with unit motions); resultant of `I a + v ×* I v` = rate of the momentum (C64); for the flight, vanishing derivatives |
| C98 | C97, then cones are convex and a list of nonnegative forces on points of a plane has a centre of pressure |
| C99 | rows times velocities summed over the dofs = power of the body wrenches; symmetry of the inertia of particles |
| C100 | simulation: heap machine against machine of values, invariant "pointers of live variables are disjoint and own all memory" over all programs |
| C101 | noninterference: two runs from memories that differ only in freed memory stay equal outside it; invariant "every pointer the solver keeps is to a registered object" (C03, C04) |
| C102 | optimality of the whole against the point glued from the result and a point of the part; the objective (with the diagonal correction, which is decided per variable) splits as a sum; mid point argument of C73 for uniqueness |
| C103 | from the meaning of the rows (C26, C27, C29, C33, C36-C40, C47-C50): each names the variables it looks at, so two vectors that agree on them satisfy it alike; damped limits, whose meaning depends on the history, by commuting `update` with the change of place |
| C104 | all high-level tasks as one type with constructors, setters and `update`; shapes by induction over the history; two tasks with equal settings (results erased) give equal results because every entry of the Jacobian is rewritten; definedness through the sizes along the path (`KSized`) and C43 |
| C105 | invariant over histories, with knowledge of the layout as an arbitrary predicate; objects that would fail when updated without it (`watch`) behave like the given ones |
| C106 | the calls again, statement by statement with the state left; agreement with the calls of `Solver`; no statement but the virtual calls throws; inversion of each throwing call |
| C107 | tables of tests and declared parameters; a decidable check of a table against the overloads of the header, and the theorem that a table that passes it makes exactly the calls of the overloads; the check is evaluated by the kernel, the arguments are arbitrary; tasks holding a high-level task by induction on the list of gains |
| C108 | the arguments a constructor would need after each setter, by cases on class and setter; histories by the settings of C104 |
| C109 | an invariant of every statement: the objects that exist are those held, the chain of high-level tasks descends; the solver's walk by induction on that chain |
| C110 | by cases on class, setter and getter; histories by induction |
| C111 | induction on the writes; the loop of the constructor reads the missing upper bound |
| C112 | C23, C61 and C15 through the translation of exceptions; the force loops throw nothing |
| C113 | one check of parameter lists against an overload for all constructors, with `skip_alloc` as a last parameter; `MotionSpringConstr` and `GazeTask` by cases on the number of arguments |
| C114 | one lemma on what a statement changes, then induction over the program none of whose statements does so |
| C115 | case analysis on class, method and class of the argument; induction over the program with C110's lemmas on setters and updates |
| C116 | unfolding of `__richcmp__` and C18's order lemmas; induction over lists for `index`, `min`, `sorted` and the map of the constraint |
| C117 | case analysis on the call for its class (`Asks`, `Reads`, or neither), induction over the program, with the weight independent of every other call; C47 for the objective; induction over the list for the names |
| C118 | relation between the two computations step by step (`Out.Rel`): the poses appear only as products with inverses of poses, where the frame cancels, and the Jacobians as turned columns; the weighted sums of products of turned blocks are those of the blocks (orthogonality); induction over the updates |
| C119 | the quaternion between two unit vectors computed (unit norm, trace and antisymmetric part of its matrix), so `rotationVelocity` of it is the turn; uniqueness of the turn from its cross product; the orientation cancels in the argument of `rotationVelocity` and stays outside |
| C120 | relation between the two computations step by step (`Out.Rel`): points and normals are moved and turned, products of turned vectors are those of the vectors, points on bodies and relative poses do not contain the frame; induction over the updates |
| C121 | induction over the permutation (updates that commute); two lists without repetition and with the same members are permutations of each other (C03, C04); sums, conjunctions and symmetric pairwise conditions do not depend on the order; uniqueness as in C73 |
| C122 | from C55: the accepted set shrinks; on the way from the result to another accepted vector the constraints that are not touched hold for a while, and a convex quadratic that does not decrease at first does not decrease later |
| C123 | the optimum is better than every admissible vector by half the curvature of the objective (small steps on the way, as in C122); adding this for both steps leaves the change of the linear term; a least-squares form determines the Hessian block and so the regularised variables |
| C124 | without the penalty the objective is multiplied by the factor; with it the two optimality inequalities are added, and the penalty is at most 1e-4/2 times the square of the result |
| C125 | the diagonal and the objective of the two problems differ by the weight times those of the task; below a positive weight no diagonal entry crosses 1e-4, so the penalty is the same and the two optimality inequalities give the bound |
| C126 | the middle of two admissible vectors is admissible and better than their mean by an eighth of the Hessian on the difference; both solvers are compared with it |
| C127 | `C127_wider_partial`: what was optimal is still accepted. The characterisations of C29 and C25 are monotone in the limits; that of C30 is not |
| C77 | the angle as arccos of the trace and Rodrigues' formula: derivative of the squared angle, also at zero angle |
| C78 | energy and a cross term as Lyapunov functions; the first time at half a turn is excluded by the energy |

## 5. Where the code disagrees with the properties or its documentation

Each item names the theorem that proves it, when there is one.  `ub` means undefined behaviour (or a
failed Eigen assertion, or a NaN) in the model.

Solver core

1. Removing a constraint that is not registered erases `end()` from the kind lists: `ub`.  Adding twice
   registers twice in the kind lists (`C04_remove_absent_ub`, `C04_counterexample`).
2. `solver(name)` drops the mimic-joint dependencies until the next `nrVars`
   (`C13_setSolver_counterexample`).
3. `setDependencies` does not reset `fullToReduced_`; mimic chains are `ub` or give a wrong relation
   (`C11_mimic_chain_ub`, `C11_mimic_chain_stale`).
4. `reduceBound` ignores the bounds of a replica whose multiplier is 0 (`C12_counterexample`).
5. `fillBound`: with overlapping bound constraints the last one wins (`C08_last_wins`,
   `C08_counterexample`).
6. The regularisation added to the Hessian does not make it positive definite
   (`C10_not_positive_definite`).
7. A constraint that grows without `updateConstrSize` is written out of range (`C05_stale_size_ub`).
8. More configurations than robots: `ub` (`C14_too_many_configurations`).
9. LSSOL diagnostics look at the wrong number of lines, report satisfied lines and never report bounds
   (`C16_*`).
10. `findJointFromVector` is off by one for the first dof of a joint and returns -1 in cases whose
    callers then index with it (`C17_*`).
11. `normalAccB_[r].resize` keeps stale values for robots without dofs (`C54_fixed_counterexample`); a task on such
    a robot then depends on which overload of `update` is called (`NoAccEx.C96_fixed_counterexample`).

Contacts

12. `sForce` checks the size of lambda against the cones of body 1 only (`C23_larger_cone_ub`).
13. `bilateral` points without a frame: `ub` (`C21_bi_missing_frame`).
14. `PositiveLambda` bounds all weights, also those of bilateral contacts (C24 states what the code does).

Constraints

15. `MotionConstr`: for a contact between two bodies of the same robot the second body overwrites the
    columns of the first (`C28_counterexample`).
16. `MotionConstrCommon::contactMatrix` reads columns from `nrDof`, not from the start of the weights
    (right only when they coincide; `C68_contact_matrix_wide`, `ContactMatrixEx.C68_counterexample`).
17. `MotionPolyConstr` forces zero torque on dofs of joints that do not have exactly one dof (`C27_poly`
    states it).
18. `JointLimitsConstr` on a floating base: vector size mismatch, `ub` (`C29_floating_base_ub`).
19. `DamperJointLimitsConstr`: division by zero on entering the zone exactly at the security distance
    and for equal distances; half-infinite ranges give NaN (`C30_half_infinite_ub`); overlapping zones
    leave the upper limit unprotected (`C31_overlap_counterexample`); the bounds of dofs of joints with
    several dofs only ever tighten (`C56_history_counterexample`, `C56_never_relaxed`).
20. `CollisionConstr` with an immobile first robot: body 2 is treated with the sign and the point of
    body 1 (`CollEx.C33_fixed_first_counterexample`).  A self collision uses the selector of body 1 for
    both.  The stored normal starts at zero, so at the first update the normal-derivative term counts
    the relative velocity again.  `updateNrCollisions` before `updateNrVars` reads an uninitialised
    size; rows without reallocation: `CollEx.C34_stale_ub`.
21. `CoMIncPlaneConstr`: activation uses `<=`, the description `<` (`PlaneEx.C36_desc_counterexample`);
    the computed damping has no absolute value (`PlaneEx.C57_plane_counterexample`).
22. `GripperTorqueConstr`: rows are compressed but descriptions are not (`GripEx.C37_desc_counterexample`);
    more cones than points: `GripEx.C37_extra_cone_ub`.
23. `BoundedSpeedConstr` used without reallocation: `SpeedEx.C38_stale_ub`.
24. `ImageConstr`: no row past the security limit (`ImgEx.C39_past_limit_counterexample`); occlusion mode
    demands a retreat (`ImgEx.C39_occlusion_counterexample`); points attached to a robot are never
    constrained (`C39_robot_points_ignored`); descriptions are shifted (`ImgEx.C39_desc_counterexample`).
25. `ContactConstr`: `descEq` divides by 6 (`C42_desc_counterexample`); more than six rows overflow
    (`C42_too_many_rows`); asking for the matrix of an unknown contact inserts an empty one
    (`C41_query_counterexample`); `updateDofContacts` does not recompute the free directions
    (`C40_stale_free_directions`); contacts between two immobile robots make `update` undefined
    (`C42_immobile_ub`).
26. `ContactPosConstr`: the header says `v + a dt = error/dt`, the code enforces `v + a dt = error`:
    however small the time step, the frames take about a second to meet (`PosEx.C81_slow`).

Tasks

27. `PIDTask::update` changes its stored error: two updates differ from one
    (`C44_pid_counterexample`, `C44_pid_drift`).
28. `TargetObjectiveTask` divides by zero at its last iteration (`C45_end`).
29. `JointsSelector::UnactiveJoints` computes the partial selection and does not use it
    (`C46_unactive_counterexample`); the range assertion is off by one (`C46_last_dof_assert`); an empty
    list of dofs is `ub` (`C46_empty_dofs_ub`).
30. `PostureTask`: single-joint robots and planar joints `ub`; two-dof joints shift the following ones;
    gains on the root joint give a linear term without Hessian; mobile non-free bases get an extra term
    (`C47_*`).
31. `TorqueTask` with a selection of the wrong size: `ub` (`C48_wrong_size_ub`).
32. `MultiCoMTask`, `MultiRobotTransformTask` drop the cross terms between robots: the minimiser
    overshoots (`C49_overshoot`, `C49_counterexample`); an empty list of robots is `ub`
    (`C49_no_robot_ub`).
33. `ContactTask` never uses its stiffness nor `errorD`; `GripperTorqueTask` sums absolute values per
    generator (`C50_gripper_counterexample`).
34. `PositionTask::bodyPoint` changes the Jacobian and not the error (`C52_counterexample`, `DriftEx.C59_body_point_counterexample`,
    `TargetEx.C108_position_bodyPoint_counterexample`).
35. `OrientationTrackingTask`: an unknown joint name is `ub` (`C53_unknown_joint_ub`); the QP task never
    calls `updateDot`, so its normal acceleration is computed from uninitialised memory
    (`C66_counterexample`: any vector can be reported).
36. `RelativeDistTask`: with given vectors the reported speed has the wrong sign when the robot point is
    on the negative side (`RelEx.C60_fixed_side_counterexample`); the first update differentiates the
    direction from zero and reports a normal acceleration of the order of `speed / dt`
    (`RelEx.C60_first_update_counterexample`); touching the environment point divides by zero
    (`C60_contact_ub`).
37. `CoMTask` with body weights: Jacobian, speed and normal acceleration are weighted, the error is the one
    of the unweighted centre of mass (`ComEx.C61_weights_counterexample`).
38. `GazeTask::update` passes to `depthDotJacobian` the image speed and the depth, not the image point: the
    depth rate of two points that differ only by the sign of one coordinate is computed to be the same, so
    the normal acceleration is wrong for one of them, whatever RBDyn computes
    (`VisEx.C65_gaze_counterexample`).  `ImageConstr::computeComponents` does the same.
39. `GazeTask::error(point2d, ref)` keeps the earlier depth estimate (`C65_gaze_estimate` gives the effect).
40. `PositionBasedVisServoTask::update` takes `-Eᵀ [ω]×` as derivative of `Eᵀ`, which is `+Eᵀ [ω]×`: the
    normal acceleration of the translation rows has the Coriolis term with the wrong sign
    (`VisEx.C65_pbvs_counterexample`).  The rotation rows of the derivative are taken as zero.
41. `TargetObjectiveTask` with a duration of one or two control periods does not reach its target
    (`TargetLoopEx.C69_counterexample`); with three or more it does, exactly (`C69_arrives_partial`).
42. `MultiCoMTask` and `MultiRobotTransformTask` on two or more robots are not critically damped: consequence
    of item 32 in closed loop (`MultiLoopEx.C70_counterexample`, `C70_law`).
43. The penalty of `1e-4` that the solver adds to small diagonal entries of the Hessian makes task weights of
    that order ineffective: raising a weight can worsen the task (`WeightEx.C71_counterexample`), and a single
    task of weight `5e-5` is not achieved (`WeightEx.C72_counterexample`).
44. The penalty looks at diagonal entries only: a semidefinite Hessian with large diagonal entries keeps
    several solutions, so the result depends on the backend (`WeightEx.C73_counterexample`; see item 6).
45. `DamperJointLimitsConstr` chooses the damping once, at the entry of the interaction zone, from the speed at
    that moment; when a joint can cross more than about half of the zone in one step, the damping exceeds what
    the time step allows and the joint passes its limit (`SafetyEx.C75_fast_counterexample`); slower joints
    never do (`C75_limits_hold`).
46. `RelativeDistTask::vector` has no effect on a task built with a zero vector: whether distances are measured
    along the vectors is decided in the constructor only (`C60_mode`, `C60_vector_ignored`).
47. `SurfaceOrientationTask::updateDot` takes `bodyJacobianDot`, the derivative of the Jacobian in the frame of
    the body, while `update` gives the Jacobian in the frame of the surface: `jacDot()` is the derivative of
    `jac()` only for surfaces oriented as their body (`JacDotEx.C79_surface_orientation_counterexample`).
    `GazeTask::jacDot` and `PositionBasedVisServoTask::jacDot` return a matrix nothing ever writes; these two
    are not modelled.
48. `CoMIncPlaneConstr` and `CollisionConstr` take any positive damping. With `damping * step <= di - ds` the row
    keeps one Euler step on the right side (C35), but along the motion itself the security distance holds only when
    `4 * damping * step <= di - ds`; in between it can be crossed (`BarrierEx.C80_damping_counterexample`). The
    documentation mentions no such condition.
49. `JointLimitsConstr` bounds the position at the end of the step of the exact motion under constant acceleration. With
    any other integration of the accelerations (the semi-implicit and explicit Euler schemes among them) the joint can
    pass its limits (`FeasEx.C82_position_limits_counterexample`). It does not look ahead either: the joint may arrive
    at its limit at full speed, and with acceleration limits the next problem has no solution
    (`FeasEx.C83_position_limits_counterexample`).
50. `DamperJointLimitsConstr` can become unsatisfiable when the acceleration limits are weaker than what its damper asks
    for (`FeasEx.C83_weak_brakes_counterexample`; `C83_stays_feasible` gives the limits that suffice).
51. With `damperOff = 0` the velocity damper of `DamperJointLimitsConstr` does not correct a violation: the damping is
    fixed on entering the zone and is proportional to the speed at that moment. A joint that enters slowly is only held
    by a small damping, and errors of the numerical solver, however small, accumulate without bound
    (`InexactEx.C85_no_offset_counterexample`). With a positive offset they do not (`C85_limits_hold`). The header
    says nothing of this role of the offset.
52. `ContactData::update` (QPContactConstr.cpp:94-99) takes the linear part of `sva::transformError` of the two inverse
    transforms as the translation to apply. That vector is the difference of the positions of the two contact frames
    from the origin of body 2, each in its own frame coordinates, so that it mixes the relative rotation with the lever
    arm. For a contact whose selection matrix frees a rotation and translations (a planar contact), when body 1 turns by
    `theta` the contact frame of body 2 is sent `sqrt(2 (1 - cos theta)) * distance to body 2's origin` away from body
    1's frame, even if body 1 turns on the spot (`C86_spin`, `FreeEx.C86_spin_counterexample`). The next update without
    relative rotation repairs it (`C86_sliding_partial`).
53. **C11 (a problem without variables).** `setDependencies` asserts `nrVars > dependencies.size()`, so with fixed robots
    only and no contact (zero variables, zero dependencies) a debug build aborts although nothing is wrong; the `resize`s
    it guards only need `>=` (`C11_no_variables_ub`).
54. **C91 (spinning bodies).** `CollisionConstr::update` (QPConstr.cpp:493-533) takes the closest points for points fixed in
    the bodies. For a ball of radius `rho` turning at `omega` about an axis across the normal, the predicted acceleration
    of the distance is too large by `rho omega^2`, so the distance settles `dt rho omega^2 (di - ds) / damping` below the
    security distance; it can reach contact (`CollLoopEx.C91_spin_counterexample`). The finite difference of the normal
    (QPConstr.cpp:490-492) does not compensate, since the normal does not move.
55. **C100 (moved-from objects).** `GazeTask`, `PositionBasedVisServoTask` and `ImageConstr` have the compiler's move
    operations, which leave null pointers behind, and copy assignments that write through the pointers of the target
    (Tasks.cpp:509-530, 612-633, QPConstr.cpp:1095-1129). `a = b` after `T c(std::move(a))`, valid for ordinary classes,
    dereferences a null pointer (`C100_moved_counterexample`); `a = std::move(b)` works.
56. **C101 (destroying a constraint that was added twice).** `addConstraint` checks for duplicates only in the list of
    constraints, while `addToSolver` appends to the lists of rows every time (QPSolver.cpp:189-244, QPSolver.h:168-194);
    one removal takes out one copy of the rows. The rows that stay point to the object: destroying it leaves a dangling
    pointer that `updateConstrSize` dereferences (`C101_counterexample`).
57. **C10 (regularisation with mimic joints).** `fillQC` adds 1e-4 to small diagonal entries so that the Hessian has a
    positive diagonal (GenQPUtils.h:31-75, `fillQC`), but the backends reduce it afterwards (QLDQPSolver.cpp:65-103): with the
    task Hessian `[[1,1],[1,1]]` and a multiplier of -1 the solver gets the Hessian `[0]` (`C10_reduced_zero_diagonal`).
58. **C105 (adding without the robots).** `addTask(task)` and `addConstraint(co)` / `addToSolver(sol)` do not call
    `updateNrVars` (QPSolver.cpp:225-228, 249-252), so that an object added after `nrVars` keeps the layout it had before,
    or none, and is updated with it (`NotifyEx.C105_without_robots_counterexample`). Nothing in the header says that these
    overloads are for use before `nrVars` only.
59. **C106 (a constraint that throws while it is added).** `addConstraint(mbs, co)` pushes the constraint before calling its
    `updateNrVars` (QPSolver.cpp:230-238) and `addToSolver` fills the lists of rows after that (QPSolver.h:174-178). If
    `updateNrVars` throws (`MotionConstr` and `ContactConstr` look bodies up by name there), the constraint is updated at
    every step but has no rows; `removeFromSolver` then erases the end of a list (`C106_addConstr_remove_ub`), and a second
    `addToSolver` returns without telling the constraint the layout (`C106_addConstr_partial`).
60. **C106 (`nrVars` that throws).** `nrVars` overwrites the data first and sizes the backend last (QPSolver.cpp:90-162): after
    an exception the two disagree, and the next control step writes outside the backend's matrices
    (`ThrowEx.C106_nrVars_counterexample`).

61. **C107 (`UnilateralContact.force` with points).** The test `[None, FrictionCone]` comes before `[list, FrictionCone]`
    (qp.pyx:194-199) and accepts a list, which is then handed to an `int` parameter: the wrench overload always raises
    (`C107_unilateral_wrench_counterexample`).
62. **C107 (`BilateralContact` with ambiguity and frame).** The second list of tests of the second branch repeats that of the
    first (qp.pyx:237-239) and there is no final `else`: eleven arguments, and any arguments that match no test, silently give
    the contact of the default constructor (`C107_bilateral_frame_counterexample`, `C107_bilateral_others_partial`).
63. **C107 (`GazeTask`, `ImageConstr.addPoint`).** Body names are not encoded, so `str` raises in Python 3; the reference point
    of a 3D gaze is tested as `Vector3d` and declared `Vector2d` (`C107_gaze_reference_counterexample`); the default frame of
    `addPoint` is declared but no test lets it be left out (`C107_image_default_counterexample`).
64. **C107 (`MultiCoMTask` weights).** The weights of the dimensions are looked for as a `VectorXd` and declared `Vector3d`
    (qp.pyx:1517, 1523): neither class works (`C107_multi_com_weights_counterexample`).
65. **C107 (`addToSolver`, `None`).** `addToSolver(solver, x, ...)` ignores everything after the solver
    (`C107_add_to_solver_counterexample`). `None` passes every declared class and every `None` test, and the C++ pointer is then
    read from it (`C107_none_ub`).
66. **C108 (`RelativeDistTask::vector`).** The constructor decides from its two directions whether distances or projections
    are measured (Tasks.cpp:1174-1181) and `vector` does not decide again: a task constructed with a zero direction ignores every
    direction it is given later (`C108_vector_ignored`, `TargetEx.C108_vector_counterexample`).
67. **C109 (Python lifetimes).** No Python object keeps another: `solver.addTask(SetPointTask(mbs, 0, PositionTask(...), k, w))`
    followed by a solve is a use after free, and so is keeping the task and not the high-level task, assigning a new task to the
    variable of a registered one, or dropping a shape of a collision (`PyLifeEx.C109_temporary_ub`, `C109_highLevel_ub`,
    `C109_rebound_ub`, `C109_shape_ub`). `ImageConstr.__dealloc__` tests `__own_impl`, which the class does not declare
    (qp.pyx:2072-2076, qp.pxd:226-227), so its C++ object is never deleted (`C109_leak`).
68. **C111 (`PolyTorqueBound.uPolyTorqueBound`).** The attribute reads and writes `lPolyTorqueBound` (tasks.pyx:555-566): the
    upper bound cannot be written, writing it replaces the lower one, and an object filled through its attributes makes
    `MotionPolyConstr` read past the end (`C111_poly`, `C111_poly_ub`, `BoundEx.C111_poly_counterexample`).
69. **C112 (`QPSolver.solver` and most of the binding).** Only `sForce`, `sNrLambda`, `nrLambda` and the `CoMTask` constructors
    with weights are declared `except +` (c_qp.pxd:44-48, 62-66, 226, c_tasks.pxd:95). An exception of any other function has
    no handler: `solver("LSSOL")` without LSSOL, or the name of a body the robot does not have, ends the Python process
    (`C112_solver_terminated`, `C112_cross`).
70. **C113 (names as `str`).** tasks.pyx, `ImageConstr` (qp.pyx:2076), `JointGains` (423) and `SpringJoint` (458) pass names
    without encoding them; in Python 3 a `str` raises and only `bytes` works, unlike in the other constructors of qp.pyx
    (`C113_str_body_counterexample`, `C113_str_joint_counterexample`).
71. **C113 (`GazeTask` of tasks.pyx:150-164).** The inner tests have no `else`: a call with a right point and wrong arguments
    after it raises nothing and leaves a null pointer, which every method follows (`C113_plain_gaze_counterexample`,
    `C113_empty_ub`). `JointsSelector()` (qp.pyx:853) and a true `skip_alloc` do the same (`C113_one_overload_partial`).
72. **C113 (`MotionSpringConstr`, qp.pyx:1698).** The springs come before the bound on the derivative of the torques, in C++
    after the time step: the arguments of the header raise (`C113_spring_order_counterexample`). The overloads of `addPlane`
    and `addBoundedSpeed` with a moving plane and a range of speeds are not there (`C113_unreachable_counterexample`).
73. **C114 (`X_b1_b2`, `X_b1_cf`, qp.pyx:178, 183, 284, 289).** `PTransformdFromC(..., copy = False)` gives a pointer into the
    contact, with no reference to it: `X = c.X_b1_b2` changes with the contact, and
    `X = solver.data().unilateralContacts()[0].X_b1_b2` is undefined when read (`C114_view_counterexample`, `C114_view_ub`).
74. **C114 (`solver.data()`, qp.pyx:2233-2234).** It is a copy in Python and a reference in C++ (QPSolver.h:114-115):
    `solver.data().computeNormalAccB(mbs, mbcs)`, as the C++ tests write it, does nothing in Python (`C114_compute_lost`).
75. **C115 (`torque()` of `MotionConstr`, `MotionPolyConstr`, `MotionSpringConstr`, qp.pyx:1630-1632, 1669-1671,
    1711-1713).** The line that reads the torques has no `return`: the result is always `None` (`C115_torque_counterexample`).
76. **C115 (`SolverData.alphaDBegin`, `lambdaBegin`, qp.pyx:338-345).** Each is defined twice in the same class, so that one
    of the two forms of C++ is lost and always raises, whichever definition is kept (`C115_data_counterexample`).
77. **C115 (`error` of `GazeTask` and `PositionBasedVisServoTask`).** `None` for the reference point, the point (module
    `tasks`) or the transform is accepted and dereferenced (`C115_error_ub`).
78. **C116 (`ContactId.__richcmp__`).** `None` passes the test of the class of the operand and is dereferenced, so
    `cid == None`, `None == cid`, and `cid in [None]` are undefined behaviour (`C116_none_ub`).  With any other class `==`
    raises instead of being `False` (`C116_raises`).  Not modelled: the class has comparisons and no `__hash__`, so
    CPython makes its objects unusable as keys of a `dict`.
79. **C116 (`<=`, `>`, `>=`).** They raise `NotImplementedError`, so `max` fails on a list on which `min` and `sorted`
    succeed (`C116_max_counterexample`).
80. **C116 (`r1BodyName`, `r2BodyName`).** The constructor encodes a `str`; the attribute returns `bytes`, and its
    setter refuses a `str` (`C116_name_counterexample`).
81. **C117 (`jointsStiffness`, `jointsGains`).** `None` passes the class test of an element and of the robots; the binding
    then reads the C++ object behind it (`C117_none_ub`).
82. **C117 (`JointsSelector.ActiveJoints`, `UnactiveJoints`).** They encode the names in the list of the caller: each `str`
    of it becomes `bytes`, also when a later name makes the call fail (`C117_names_counterexample`); a tuple that has a
    `str` fails, because it cannot be assigned to (`C117_names_tuple_counterexample`).
83. **C117 (`JointsSelector`).** The constructor does not encode: a list with a `str` fails (`C117_ctor_counterexample`).
84. **C118.** Weights that prefer an axis of the world make the objective depend on the world frame (`C118_axis_counterexample`);
    this is what `dimWeight` means, and users must turn it with the frame.
85. **C119 (`OrientationTrackingTask`).** Tasks.cpp:1135-1138 computes the rotation that takes the axis to the direction of the
    point in world coordinates, and multiplies it on the left of the orientation of the body, where a rotation in coordinates of
    the body is expected (`E * targetOri` would be the target). The error is the right vector with the transposed orientation of the
    body applied to it: right if and only if the orientation leaves the axis of the turn where it is. A body rolled half a
    turn about the tracked axis is turned away from the point (`C119_away_counterexample`), and the error depends on the world
    frame (`C119_frame_counterexample`).
86. **C121.** Two bound constraints on the same variable: what is accepted depends on which was added last
    (`C121_bounds_counterexample`, see C08).
87. **C122.** For the same reason adding a second bound constraint on a variable can enlarge the accepted set
    (`C122_bounds_counterexample`).
88. **C124.** Scaling all weights by one factor changes the result when a diagonal entry falls below 1e-4, as the solver then adds
    a penalty that is not scaled (`RatioEx.C124_counterexample`, see C72).
89. **C125.** The result jumps when the only weight on a variable passes 1e-4: the penalty of 88 is there just below and gone from
    there on, and the variable goes from less than half of what is asked for to all of it (`SilentEx.C125_jump`).
90. **C127.** Raising the upper limit of a joint under damped joint limits can stop it from moving down: the zone in which the lower
    limit is damped is a fraction of the range and grows with it (`WiderEx.C127_damper_counterexample`).

## 6. Axioms

Output of `#print axioms` for every theorem of the manifest (prefix `Verif.` omitted).

**none**: `PyBound.C111_poly`, `PyBound.BoundEx.C111_poly_counterexample`, `PyCtor.C113_empty_ub`

**propext**: `C04_remove_absent_ub`, `C16_reports_satisfied_line`, `C17_counterexample`, `C52_lin_velocity`, `C67_orientation`, `C67_surface_orientation`, `C67_transform`, `NoAccEx.C96_fixed_counterexample`, `PyLife.PyLifeEx.C109_temporary_ub`, `PyLife.PyLifeEx.C109_highLevel_ub`, `PyLife.PyLifeEx.C109_rebound_ub`, `PyLife.PyLifeEx.C109_shape_ub`, `PyLife.PyLifeEx.C109_leak`, `PyValue.PyValueEx.C114_view_counterexample`, `PyValue.PyValueEx.C114_view_ub`, `PyValue.PyValueEx.C114_compute_lost`, `PyAcc.C115_torque_counterexample`, `PyAcc.C115_data_counterexample`, `PyPosture.C117_reads`, `PyPosture.C117_weight`, `PyAcc.C115_torque_none`

**propext, Quot.sound**: `C04_counterexample`, `C05_updateConstrSize_fits`, `C11_no_variables_ub`, `C15_backend_selection`, `C15_default_backend`, `C16_bounds_never_reported`, `C24_fresh`, `C25_too_many_limits`, `C29_floating_base_ub`, `C33_add`, `C33_hull_pose`, `C34_rm`, `C34_get`, `C34_alloc`, `C36_registry`, `C36_rm`, `C37_registration`, `C38_registration`, `C39_points`, `C39_update_point3`, `C42_desc_counterexample`, `C47_single_joint_ub`, `C49_no_robot_ub`, `C60_setters`, `C65_gaze_make`, `C67_position`, `C67_velocity`, `C67_vector`, `C67_com`, `C67_momentum`, `C67_multi_com`, `C82_semi_implicit`, `C93_bounds`, `C104_multi`, `C104_multi_own`, `C105_nrVars`, `C105_again`, `C105_unsized`, `C106_nrVars`, `Binding.C107_bilateral_frame_counterexample`, `Binding.C107_gaze_reference_counterexample`, `Binding.C107_image_default_counterexample`, `Binding.C107_multi_com_weights_counterexample`, `C108_position_bodyPoint`, `C100_constructors`, `C110_multi`, `PyBound.C111_bounds_partial`, `PyBound.C111_poly_ub`, `PyExc.C112_cross`, `PyExc.C112_solver_partial`, `PyExc.C112_solver_terminated`, `C104_reports`, `PyCtor.C113_skip_alloc`, `PyCtor.C113_plain_gaze_counterexample`, `Binding.C107_none_bilateral_counterexample`, `PyLife.C109_shapes`, `C106_updateNrVars`, `PyValue.C114_contact`, `PyValue.C114_contact_transform`, `PyValue.C114_assign`, `PyValue.C114_solver`, `PyValue.C114_solver_data`, `PyAcc.C115_target`, `PyPosture.C117_asks`, `PyPosture.C117_raises`, `PyPosture.C117_names_list`, `PyPosture.C117_names_again`, `PyPosture.C117_none_ub`, `PyPosture.C117_names_counterexample`, `PyPosture.C117_names_tuple_counterexample`, `PyPosture.C117_ctor_counterexample`, `C118_sva`, `C118_multi`, `C120_collision_rows`, `C120_collision_desc`, `C120_plane_rows`, `C120_plane_desc`, `C120_contact_kinematics`, `PyCtor.C113_own_class`

**propext, Classical.choice, Quot.sound**: `C01_layout_partition`, `C01_layout_no_history`, `C02_accessors`, `C02_accessors_out_of_range`, `C02_contactLambdaPosition`, `C03_registry_ordered_set`, `C03_registry_noop`, `C03_solver_tasks`, `C04_in_step_partial`, `C04_exact_counts`, `C04_solver_constraints_partial`, `C05_qld_in_range`, `C05_lssol_in_range`, `C05_stale_size_ub`, `C06_qld_lines`, `C07_lssol_lines`, `C07_same_problem`, `C08_bounds_enforced_partial`, `C08_last_wins`, `C08_counterexample`, `C09_objective`, `C10_hessian_convex`, `C10_not_positive_definite`, `C10_reduced`, `C10_reduced_zero_diagonal`, `C100_gaze_partial`, `C100_pbvs_partial`, `C100_image_partial`, `C100_independent`, `C100_copy`, `C100_gaze_members`, `C100_pbvs_members`, `C100_image_members`, `C100_moved_counterexample`, `C100_moved_restored`, `C101_solve`, `C101_call`, `C101_no_write`, `C101_destroyed_partial`, `C101_counterexample`, `C11_dependency_maps`, `C11_mimic_chain_ub`, `C11_mimic_chain_stale`, `C12_reduction_partial`, `C12_reduction_lssol_partial`, `C12_optimal_partial`, `C12_optimal_lssol_partial`, `C12_counterexample`, `C13_mimic_respected_partial`, `C13_setSolver_counterexample`, `C14_solve`, `C14_update_order`, `C14_solve_returns`, `C14_too_many_configurations`, `C16_line_attribution_partial`, `C16_message_partial`, `C16_unsized_hessian`, `C16_undefined_with_mimic`, `C16_counterexample`, `C17_with_base_partial`, `C17_no_base_partial`, `C17_first_dof_wrong`, `C17_with_base_range`, `C17_no_base_line_zero`, `C17_no_base_fixed_wrong`, `C17_torque_name_partial`, `C17_torque_name_wrong`, `C17_limits_name_partial`, `C17_limits_name_wrong`, `C18_contactId_order`, `C18_default`, `C19_generators`, `C20_uni_force_in_cone`, `C20_bi_force_in_cone`, `C21_uni_action_reaction`, `C21_bi_action_reaction`, `C21_bi_missing_frame`, `C22_bilateral_view`, `C23_uni_checked_partial`, `C23_bi_checked_partial`, `C23_larger_cone_ub`, `C24_weights_nonneg`, `C25_torque_limits`, `C25_setup`, `C26_rate_lines`, `C26_rate_execution`, `C27_springs`, `C27_poly`, `C27_poly_setup`, `C28_last_side_partial`, `C28_counterexample`, `C29_limits`, `C30_row`, `C30_bounds`, `C30_update_ok`, `C30_half_infinite_ub`, `C31_invariant`, `C31_overlap_counterexample`, `C32_update`, `C32_constant`, `C32_entry`, `C33_update`, `C33_row`, `C33_geometry`, `C33_two_bodies`, `C33_one_body`, `C33_point`, `C33_normal`, `C33_desc`, `CollEx.C33_fixed_first_counterexample`, `C34_registry`, `C34_counts`, `CollEx.C34_stale_ub`, `C35_collision`, `C35_plane`, `C36_update`, `C36_desc_partial`, `PlaneEx.C36_desc_counterexample`, `C37_rows`, `C37_torque`, `C37_desc_partial`, `GripEx.C37_desc_counterexample`, `GripEx.C37_extra_cone_ub`, `C38_rows`, `C38_stacking`, `C38_sizes_ub`, `SpeedEx.C38_stale_ub`, `C39_fov_partial`, `C39_fov_safe`, `C39_occlusion_partial`, `C39_robot_points_ignored`, `C39_desc_partial`, `ImgEx.C39_past_limit_counterexample`, `ImgEx.C39_occlusion_counterexample`, `ImgEx.C39_desc_counterexample`, `C40_rows`, `C40_stacking`, `C40_frames_locked`, `C40_default_locks`, `C40_stale_free_directions`, `C41_registry_partial`, `C41_query_counterexample`, `C41_query_is_add`, `C42_dedupe`, `C42_nrVars_ok`, `C42_sizes`, `C42_too_many_rows`, `C42_desc_partial`, `C42_immobile_ub`, `C43_setpoint`, `C43_setpoint_defined`, `C43_tracking`, `C43_trajectory`, `C43_pid`, `C43_minimiser`, `C43_minimiser_unique`, `C43_setpoint_runs`, `C43_tracking_runs`, `C43_trajectory_runs`, `C43_pid_runs`, `C43_trajectory_rejects`, `C44_setpoint`, `C44_tracking`, `C44_trajectory`, `C44_pid_partial`, `C44_pid_drift`, `C44_pid_counterexample`, `C45_profile`, `C45_objective`, `C45_consistent`, `C45_end`, `C45_iterations`, `C45_defined`, `C46_active`, `C46_unactive_partial`, `C46_objective`, `C46_unactive_counterexample`, `C46_last_dof_assert`, `C46_empty_dofs_ub`, `C46_defined`, `C46_set_point`, `C47_error_partial`, `C47_objective_partial`, `C47_objective`, `C47_two_dof_counterexample`, `C47_planar_ub`, `C47_root_gain_counterexample`, `C47_mobile_base_counterexample`, `C48_torque_objective`, `C48_reported_torque`, `C48_wrong_size_ub`, `C49_decoupled_partial`, `C49_one_mobile_partial`, `C49_overshoot`, `C49_counterexample`, `C49_weights`, `C49_error`, `C50_contact_task`, `C50_contact_task_not_ready`, `C50_gripper_task`, `C50_gripper_torque_partial`, `C50_gripper_counterexample`, `C50_extra_cone_ub`, `C51_lin_velocity`, `C51_surface_transform`, `C51_vector_orientation`, `C51_multi_robot`, `C51_position`, `C51_orientation`, `C51_surface_orientation`, `C51_transform`, `C51_visual`, `C52_body_point_partial`, `C52_counterexample`, `C53_tracking_columns`, `C53_unknown_joint_ub`, `C54_normal_recursion_partial`, `C54_no_history_partial`, `C54_fixed_zero_partial`, `C54_fixed_counterexample`, `C55_end_to_end`, `C56_one_dof_partial`, `C56_never_relaxed`, `C56_history_counterexample`, `C57_collision`, `C57_plane_partial`, `PlaneEx.C57_plane_counterexample`, `C58_position`, `C58_lin_velocity`, `C58_orientation`, `C58_surface_orientation`, `C58_vector_orientation`, `C58_transform`, `C58_surface_transform`, `C58_multi_robot`, `C58_visual`, `C59_position`, `C59_vector_orientation`, `C59_transform`, `C59_surface_transform`, `C59_multi_robot`, `DriftEx.C59_body_point_counterexample`, `C60_speed_is_jac`, `C60_contact_ub`, `C60_mode`, `C60_vector_ignored`, `C60_error_rate`, `C60_error_rate_fixed`, `C60_drift`, `RelEx.C60_fixed_side_counterexample`, `RelEx.C60_first_update_counterexample`, `C61_speed_is_jac`, `C61_drift`, `C61_error_rate`, `C61_multi`, `C61_uniform_weight`, `C61_inertia`, `C61_rejected`, `ComEx.C61_weights_counterexample`, `C61_unweighted`, `C62_setpoint`, `C62_converges`, `C62_no_overshoot`, `C62_trajectory`, `C62_position`, `C62_com`, `C63_instant`, `C63_velocity`, `C63_no_slip`, `C64_jacobian`, `C64_no_mass`, `C64_momentum`, `C64_drift`, `C64_closed_loop`, `C64_converges`, `C64_lin_velocity`, `C65_gaze`, `C65_gaze_drift_partial`, `C65_gaze_estimate`, `C65_gaze_no_depth`, `VisEx.C65_gaze_counterexample`, `C65_pbvs`, `C65_pbvs_drift_partial`, `VisEx.C65_pbvs_counterexample`, `C65_pbvs_rotation`, `C65_pbvs_rotation_convention`, `C66_update`, `C66_update_dot`, `C66_drift_partial`, `C66_counterexample`, `C67_objective`, `C68_matrix`, `C68_contact_matrix_partial`, `C68_contact_matrix_wide`, `ContactMatrixEx.C68_counterexample`, `C69_arrives_partial`, `C69_law`, `TargetLoopEx.C69_counterexample`, `C70_law`, `C70_one_robot_partial`, `C70_converges_partial`, `C70_com`, `MultiLoopEx.C70_counterexample`, `C71_raise_weight_partial`, `C71_scale_weights_partial`, `WeightEx.C71_counterexample`, `C72_compatible_partial`, `WeightEx.C72_counterexample`, `C73_unique_partial`, `WeightEx.C73_counterexample`, `C74_together_partial`, `C75_limits_hold`, `SafetyEx.C75_fast_counterexample`, `C76_forces`, `C76_torques`, `C77_formula`, `C77_unique`, `C77_orientation`, `C77_surface_orientation`, `C77_transform`, `C77_surface_transform`, `C77_multi_robot`, `C78_orientation`, `C78_surface_orientation`, `C78_transform`, `C79_position`, `C79_orientation`, `C79_lin_velocity`, `C79_com`, `C79_momentum`, `C79_surface_orientation`, `C79_surface_orientation_partial`, `JacDotEx.C79_surface_orientation_counterexample`, `C80_com_plane`, `C80_rates`, `C80_bounded_speed`, `BarrierEx.C80_damping_counterexample`, `C81_contact_position`, `C81_fixed_body`, `PosEx.C81_slow`, `C82_limits_hold`, `C82_schemes`, `SafetyEx.C82_half_zone_counterexample`, `C82_position_limits`, `FeasEx.C82_position_limits_counterexample`, `C83_stays_feasible`, `FeasEx.C83_weak_brakes_counterexample`, `FeasEx.C83_position_limits_counterexample`, `C84_end_to_end`, `C84_bounds`, `C84_exact`, `C85_limits_hold`, `InexactEx.C85_no_offset_counterexample`, `C86_step`, `C86_fixed`, `C86_sliding_partial`, `C86_pivoting_partial`, `C86_spin`, `FreeEx.C86_spin_counterexample`, `C87_solver`, `C87_rows`, `C87_instant`, `C87_velocity`, `C87_drift`, `NearEx.C87_acc_drift_counterexample`, `NearEx.C87_speed_sharp`, `C88_weights`, `C88_torques`, `C88_cone`, `C88_forces`, `PhysEx.C88_sharp`, `C89_miss`, `C89_compatible`, `C89_priority`, `C89_row`, `C90_ultimate`, `PriorityEx.C90_steady`, `C91_distance_partial`, `C91_no_turn`, `CollLoopEx.C91_spin_counterexample`, `C92_com_plane`, `C92_bounded_speed`, `BarrierEx.C92_sharp`, `C93_qld`, `C93_lssol`, `C94_lines`, `C94_bounds`, `C94_transfer`, `C94_limits_hold`, `C94_com_plane`, `C95_forward_defined`, `C95_path`, `C95_body_velocity`, `C95_evolves`, `C95_normal_acceleration`, `C95_bodies`, `C95_position`, `C95_position_converges`, `C96_position`, `C96_lin_velocity`, `C96_orientation`, `C96_surface_orientation`, `C96_com`, `C96_multi_com`, `C96_momentum`, `C97_newton_euler`, `C97_flight`, `C98_friction`, `C98_zmp`, `C99_energy`, `C99_conserved`, `C102_part_optimal`, `C102_alone`, `C102_stopped`, `C102_together`, `C102_robot`, `C102_setpoint`, `C103_joint_limits`, `C103_damper_limits`, `C103_torque_limits`, `C103_springs`, `C103_poly`, `C103_torque_task`, `C103_bounded_speed`, `C103_com_plane`, `C103_image`, `C103_collision`, `C103_contact`, `C103_gripper`, `C103_multi_task`, `C103_posture`, `C103_contact_task`, `C103_gripper_task`, `C104_dimension`, `C104_own_robot`, `C104_memoryless`, `C104_defined`, `C104_setpoint`, `C104_tracking`, `C104_trajectory`, `C104_pid`, `C105_history`, `C105_from_construction`, `C105_from_nrVars`, `NotifyEx.C105_without_robots_counterexample`, `C106_calls_agree`, `C106_only_objects`, `C106_setSolver`, `C106_solve`, `C106_result`, `C106_solve_again`, `C106_nrVars_again`, `C106_addTask`, `C106_addConstr_partial`, `C106_addConstr_remove_ub`, `ThrowEx.C106_nrVars_counterexample`, `Binding.C107_cone_and_id`, `Binding.C107_unilateral`, `Binding.C107_unilateral_force_partial`, `Binding.C107_unilateral_wrench_counterexample`, `Binding.C107_bilateral_partial`, `Binding.C107_bilateral_others_partial`, `Binding.C107_bilateral_force`, `Binding.C107_orientation`, `Binding.C107_gaze_partial`, `Binding.C107_image_add_partial`, `Binding.C107_solver_and_points`, `Binding.C107_add_to_solver_partial`, `Binding.C107_add_to_solver_counterexample`, `Binding.C107_held_tasks`, `Binding.C107_multi_com_partial`, `Binding.C107_none_ub`, `C108_set_is_build`, `C108_sets_are_build`, `C108_history`, `C108_vector_ignored`, `TargetEx.C108_position_bodyPoint_counterexample`, `TargetEx.C108_vector_counterexample`, `PyLife.C109_alive`, `PyLife.C109_solve`, `PyLife.C109_call`, `PyLife.C109_no_double_delete`, `PyLife.C109_keeps`, `C46_unactive_dofs`, `C110_getters`, `C110_set_back`, `PyExc.C112_unilateral`, `PyExc.C112_bilateral`, `PyExc.C112_comTask`, `PyCtor.C113_one_overload_partial`, `PyCtor.C113_joint_values_partial`, `PyCtor.C113_plain_orientation_partial`, `PyCtor.C113_motion`, `PyCtor.C113_spring_partial`, `PyCtor.C113_spring_order_counterexample`, `PyCtor.C113_plain_gaze_partial`, `PyCtor.C113_str_body_counterexample`, `PyCtor.C113_str_joint_counterexample`, `PyCtor.C113_unreachable_counterexample`, `Binding.C107_none_tested`, `PyValue.C114_copy`, `PyValue.C114_make`, `PyValue.C114_view_partial`, `PyValue.C114_data`, `PyValue.C114_element`, `PyValue.C114_names`, `PyAcc.C115_get`, `PyAcc.C115_missing`, `PyAcc.C115_set`, `PyAcc.C115_raises`, `PyAcc.C115_error_partial`, `PyAcc.C115_history`, `PyAcc.C115_set_point`, `PyAcc.C115_pid`, `PyAcc.C115_other_class`, `PyAcc.C115_data`, `PyAcc.C115_error_ub`, `PyId.C116_compare`, `PyId.C116_order`, `PyId.C116_raises`, `PyId.C116_make`, `PyId.C116_set`, `PyId.C116_search`, `PyId.C116_min`, `PyId.C116_sorted`, `PyId.C116_sorted_unique`, `PyId.C116_lookup`, `PyId.C116_none_ub`, `PyId.C116_name_counterexample`, `PyId.C116_max_counterexample`, `PyPosture.C117_history`, `PyPosture.C117_readings`, `PyPosture.C117_objective_partial`, `PyPosture.C117_names`, `C118_update`, `C118_report`, `C118_motion`, `C118_setPoint`, `C118_trajectory`, `C118_tracking`, `C118_pid`, `C118_axis_counterexample`, `C119_formula`, `C119_size`, `C119_zero`, `C119_right_partial`, `C119_closing`, `C119_reported`, `C119_away_counterexample`, `C119_frame_counterexample`, `PyAcc.C115_data_ub`, `C120_collision`, `C120_collision_run`, `C120_plane`, `C120_plane_run`, `C120_contact`, `C120_kinematics`, `C120_com_kinematics`, `C119_opposite`, `C121_registered`, `C121_step`, `C121_sizes`, `C121_separate`, `C121_problem`, `C121_result`, `C121_end_to_end`, `C121_bounds_counterexample`, `C122_more`, `C122_untouched`, `C122_touched`, `C122_bounds_counterexample`, `ExtraEx.C122_single`, `C123_result`, `C123_task`, `C123_row`, `C123_setpoint`, `C124_ratio_partial`, `C124_scale`, `C124_larger`, `RatioEx.C124_counterexample`, `C125_zero`, `C125_zero_result`, `C125_small`, `C125_fades`, `SilentEx.C125_jump`, `C126_corrected`, `C126_agree`, `C126_exact`, `C126_row`, `C126_same`, `AgreeEx.C126_sharp`, `AgreeEx.C126_rows_counterexample`, `C127_wider_partial`, `C127_exchange`, `C127_positions`, `C127_torques`, `WiderEx.C127_damper_counterexample`, `C127_moves`, `C127_inexact`, `C95_parameters`
