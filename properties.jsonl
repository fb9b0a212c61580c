{"id": "C01", "title": "Decision vector layout is a partition", "statement": "After nrVars(mbs, uni, bi), the index ranges [alphaDBegin(r), alphaDBegin(r)+alphaD(r)) of the robots followed by [lambdaBegin(c), lambdaBegin(c)+lambda(c)) of the contacts (unilateral first, then bilateral) are consecutive, pairwise disjoint and cover exactly [0, nrVars); totalAlphaD, totalLambda, nrUniLambda, nrBiLambda, lambdaBegin() and bilateralBegin() are the matching sums. Every call to nrVars with the same arguments gives the same layout whatever was stored before.", "quantifier": "every list of robots (any number of dofs, including 0), every list of unilateral and bilateral contacts with any number of points and generators, every previous solver state", "why_tests_cant": "the number of robots, contacts, points and generators is unbounded and the layout is computed by two running sums; tests fix one or two robots", "anchors": ["src/QPSolver.cpp:QPSolver::nrVars", "src/Tasks/QPSolverData.h:SolverData"]}
{"id": "C02", "title": "Result accessors slice the solution consistently", "statement": "alphaDVec(r) for all robots in order, followed by lambdaVec(c) for all contacts in order, concatenates to result(); alphaDVec() is the concatenation of the alphaDVec(r) and lambdaVec() the concatenation of the lambdaVec(c). contactLambdaPosition(id) is the offset inside lambdaVec() of the first contact whose id equals the argument (so lambdaBegin()+position = lambdaBegin(c)), and -1 exactly when no contact has that id.", "quantifier": "every layout, every result vector of size nrVars, every contact id", "why_tests_cant": "relates five accessors for unbounded numbers of robots and contacts, including duplicated and missing ids", "anchors": ["src/QPSolver.cpp:QPSolver::alphaDVec", "src/QPSolver.cpp:QPSolver::lambdaVec", "src/QPSolver.cpp:QPSolver::contactLambdaPosition"]}
{"id": "C03", "title": "Constraint and task registries behave as insertion-ordered sets", "statement": "Over any history of addConstraint/removeConstraint (addTask/removeTask/resetTasks), the registered objects are exactly those added and not since removed, each once, in order of first insertion since last removal; adding a present object and removing an absent one change nothing, and nrConstraints/nrTasks is the cardinality.", "quantifier": "every finite history of add/remove/reset calls with arbitrary object identities", "why_tests_cant": "histories are unbounded; duplicates and absent removals interact with order", "anchors": ["src/QPSolver.cpp:QPSolver::addConstraint", "src/QPSolver.cpp:QPSolver::removeConstraint", "src/QPSolver.cpp:QPSolver::addTask", "src/QPSolver.cpp:QPSolver::removeTask", "src/QPSolver.cpp:QPSolver::resetTasks"]}
{"id": "C04", "title": "addToSolver/removeFromSolver keep updated and enforced constraints in step", "statement": "Over any history of addToSolver/removeFromSolver of constraint objects, no call is undefined behaviour and the set of constraints that are enforced (their rows are put in the QP) equals the set of constraints that are updated each step. (The code only guarantees this when calls alternate per object: a second addToSolver enforces the rows twice and leaves them enforced but never updated after one removeFromSolver, and removeFromSolver of an absent object erases end().)", "quantifier": "every finite history of addToSolver/removeFromSolver calls over any set of constraint objects, each with any subset of equality/inequality/general-inequality/bound parts", "why_tests_cant": "needs an invariant over unbounded call histories, and one branch is undefined behaviour that a test can miss", "anchors": ["src/Tasks/QPSolver.h:ConstraintFunction::addToSolver", "src/Tasks/QPSolver.h:ConstraintFunction::removeFromSolver", "src/QPSolver.cpp:QPSolver::addEqualityConstraint", "src/QPSolver.cpp:QPSolver::removeEqualityConstraint"]}
{"id": "C05", "title": "Matrix assembly never writes outside the allocated QP", "statement": "If the sizes were last updated (updateConstrSize) with the current constraints and number of variables, each constraint reports nrLines <= maxLines with matrices of at least that many rows and nrVars columns, bounds fit in the variables and task blocks fit, then assembling the QP (both QLD and LSSOL forms) performs no out-of-range access; with stale sizes it can.", "quantifier": "every list of tasks, equality, inequality, general inequality and bound constraints of any size", "why_tests_cant": "out-of-range Eigen blocks are silent undefined behaviour in release builds; the number and sizes of constraints are unbounded", "anchors": ["src/GenQPUtils.h:fillEq", "src/GenQPUtils.h:fillInEq", "src/GenQPUtils.h:fillGenInEq", "src/GenQPUtils.h:fillBound", "src/GenQPUtils.h:fillQC", "src/QLDQPSolver.cpp:QLDQPSolver::updateSize", "src/LSSOLQPSolver.cpp:LSSOLQPSolver::updateSize", "src/QPSolver.cpp:QPSolver::updateConstrSize"]}
{"id": "C06", "title": "QLD problem is exactly the conjunction of the registered constraints", "statement": "A vector x satisfies the equality and inequality lines that QLDQPSolver passes to QLD if and only if it satisfies, for every registered constraint and every active line, A x = b, A x <= b, and L <= A x <= U respectively; inactive lines (beyond nrLines) are never passed.", "quantifier": "every list of constraints with every number of active lines, every x, bounds possibly infinite", "why_tests_cant": "equivalence over all real vectors and unbounded constraint lists", "anchors": ["src/GenQPUtils.h:fillEq", "src/GenQPUtils.h:fillInEq", "src/GenQPUtils.h:fillGenInEq", "src/QLDQPSolver.cpp:QLDQPSolver::updateMatrix", "src/QLDQPSolver.cpp:QLDQPSolver::solve"]}
{"id": "C07", "title": "LSSOL problem is the same feasible set as the QLD one", "statement": "A vector x satisfies AL <= A x <= AU on the lines LSSOLQPSolver passes to LSSOL if and only if it satisfies every active line of every registered constraint, hence if and only if it satisfies the QLD lines: switching solver does not change the feasible set.", "quantifier": "every list of constraints, every x, bounds possibly infinite", "why_tests_cant": "two different encodings (two one-sided copies vs a two-sided line) must agree on all vectors; LSSOL is proprietary and untested in CI", "anchors": ["src/GenQPUtils.h:fillEq", "src/GenQPUtils.h:fillInEq", "src/GenQPUtils.h:fillGenInEq", "src/LSSOLQPSolver.cpp:LSSOLQPSolver::updateMatrix", "src/LSSOLQPSolver.cpp:LSSOLQPSolver::solve"]}
{"id": "C08", "title": "Every registered bound constraint is enforced on its variables", "statement": "x is within the bounds passed to the backend if and only if it is within the bounds of every registered bound constraint, variables covered by none being free. (The code only guarantees this when the bound constraints cover disjoint variables: overlapping ones overwrite instead of intersecting, the last one registered wins.)", "quantifier": "every list of bound constraints with any ranges and possibly infinite bounds, every x", "why_tests_cant": "depends on registration order and on overlaps of arbitrary ranges", "anchors": ["src/GenQPUtils.h:fillBound"]}
{"id": "C09", "title": "Objective is the weighted sum of the task objectives plus a diagonal regularisation", "statement": "For every x the assembled objective 1/2 x'Qx + C'x equals the sum over tasks of weight*(1/2 x_t'Q_t x_t + C_t'x_t) on the task's variable block plus 1/2*1e-4*sum of x_i^2 over exactly the variables whose accumulated diagonal entry has absolute value < 1e-4.", "quantifier": "every list of tasks with any square block positions inside the variables, any weights, every x", "why_tests_cant": "identity over all vectors, overlapping blocks and unbounded task lists", "anchors": ["src/GenQPUtils.h:fillQC"]}
{"id": "C10", "title": "Regularised Hessian stays convex with positive diagonal", "statement": "If every task Q is symmetric positive semidefinite and every weight is nonnegative then the assembled Q is symmetric, positive semidefinite and every diagonal entry is at least 1e-4. It is not necessarily positive definite, contrary to what the regularisation comment aims at. With mimic joints the reduced Hessian is still symmetric and positive semidefinite and its diagonal is at least 1e-4 at every variable that no joint mimics; at a mimicked joint it can be 0, since the regularisation is done before the reduction.", "quantifier": "every list of tasks with PSD blocks and nonnegative weights", "why_tests_cant": "semidefiniteness is a statement over all vectors and all task combinations", "anchors": ["src/GenQPUtils.h:fillQC"]}
{"id": "C11", "title": "Mimic dependency maps are mutually inverse and the multiplier matrix expresses the dependencies", "statement": "For at least one variable and dependencies with distinct in-range replica indices whose leaders are not replicas, after setDependencies reducedToFull lists the non-replica variables in increasing order, fullToReduced is its inverse on them, and for every reduced vector y the expanded x = M y has x[full] = y[reduced] on non-replica variables and x[replica] = factor * x[primary] for every dependency. This holds whatever dependencies were set before. (Zero variables fail an assertion. A mimic joint following another mimic joint is not supported: its leader column is -1 or stale.)", "quantifier": "every number of variables, every dependency list (any order), every reduced vector, every previous dependency state", "why_tests_cant": "the single-pass construction relies on sorting and a running shift; sizes, orders and previous states are unbounded", "anchors": ["src/GenQPSolver.cpp:GenQPSolver::setDependencies", "src/GenQPUtils.h:expandResult"]}
{"id": "C12", "title": "Mimic reduction does not change the optimisation problem", "statement": "For well-formed dependencies, y is feasible for the reduced problem if and only if x = M y is feasible for the full problem (lines and bounds), and the reduced objective at y equals the full objective at M y; so the expanded optimum of the reduced problem is optimal for the full problem restricted to the mimic relations. (Bounds of a replica with multiplier exactly 0 are dropped by the code.)", "quantifier": "every QP, every well-formed dependency list with positive, negative or zero multipliers, every y, bounds possibly infinite", "why_tests_cant": "equivalence over all vectors with sign-dependent bound swapping and several replicas per primary", "anchors": ["src/GenQPUtils.h:reduceA", "src/GenQPUtils.h:reduceBound", "src/GenQPUtils.h:reduceQC", "src/GenQPUtils.h:expandResult"]}
{"id": "C13", "title": "Returned accelerations respect mimic joints", "statement": "Whatever the backend returns (even on failure), when the dependencies known to the backend are those of the robots, every mimic joint's acceleration in result() is its multiplier times its leader's acceleration. Changing the backend with solver(name) keeps this property. (The code loses the dependencies on solver(name) until nrVars is called again.)", "quantifier": "every backend answer, every robot set with mimic joints, every sequence of nrVars/updateConstrSize/solver(name) calls", "why_tests_cant": "the bug appears only for one ordering of configuration calls", "anchors": ["src/QPSolver.cpp:QPSolver::solver", "src/QPSolver.cpp:QPSolver::nrVars", "src/QLDQPSolver.cpp:QLDQPSolver::solve"]}
{"id": "C14", "title": "solve writes accelerations only on success and only accelerations", "statement": "solve returns the backend's success flag; on failure every MultiBodyConfig is unchanged; on success mbcs[r].alphaD is the robot's slice of result() for every robot and nothing else changes. Each registered constraint is updated exactly once, then each task exactly once, before the QP is assembled, in registration order, even when one object is also used elsewhere.", "quantifier": "every set of constraints and tasks, every backend behaviour", "why_tests_cant": "quantifies over arbitrary backend outcomes and object lists", "anchors": ["src/QPSolver.cpp:QPSolver::solve", "src/QPSolver.cpp:QPSolver::preUpdate", "src/QPSolver.cpp:QPSolver::postUpdate", "src/QPSolver.cpp:QPSolver::updateMbc"]}
{"id": "C15", "title": "Backend selection", "statement": "createQPSolver and solver(name) accept exactly the names of the compiled backends (QLD always, LSSOL if found), the backend's name() is the requested name, and any other name throws std::out_of_range leaving the current backend and its problem in place.", "quantifier": "every string", "why_tests_cant": "all strings, and exception safety of the replacement", "anchors": ["src/GenQPSolver.cpp:createQPSolver", "src/QPSolver.cpp:QPSolver::solver"]}
{"id": "C16", "title": "Violated-line diagnostics name the right constraint line", "statement": "When LSSOL reports line i violated, exactly one constraint is named and the (constraint, local line) printed is the one whose active line was copied to QP line i; a violated variable i is attributed to the bound constraint covering it. (With no mimic dependency the code takes the number of variables from an unsized matrix, so bounds are never reported and lines are read from the wrong state entries; with dependencies it uses reduced indices as full ones.)", "quantifier": "every list of constraints with any number of lines including empty ones, every violated line", "why_tests_cant": "line bookkeeping is threaded through three loops with early exit; empty constraints and boundaries matter", "anchors": ["src/GenQPUtils.h:constrErrorMsg", "src/LSSOLQPSolver.cpp:LSSOLQPSolver::errorMsg"]}
{"id": "C17", "title": "Joint named in constraint descriptions is the joint of the violated line", "statement": "findJointFromVector(mb, line, withBase) returns the joint owning dof `line`. (The code's comparison is off by one at joint boundaries and, without base, starts the dof count at 1; it returns -1 for lines past the end, which callers index with.)", "quantifier": "every kinematic structure (any sequence of joint dof counts) and every line", "why_tests_cant": "off-by-one at boundaries of arbitrary joint dof sequences", "anchors": ["src/utils.h:findJointFromVector"]}
{"id": "C18", "title": "ContactId ordering is a strict total order consistent with equality", "statement": "operator< on ContactId is irreflexive, transitive and total with respect to operator==, so ContactId is usable as a std::map/std::set key and equal keys are exactly equal ids.", "quantifier": "all triples of contact ids", "why_tests_cant": "lexicographic comparison over unbounded integers and strings", "anchors": ["src/QPContacts.cpp:ContactId::operator<", "src/QPContacts.cpp:ContactId::operator=="]}
{"id": "C19", "title": "Friction cone generators lie on the linearised friction cone", "statement": "For an orthonormal frame (rows tangent, bitangent, normal) and friction coefficient mu, every generator is a unit vector making angle atan(mu) with the normal, i.e. tangential norm = mu * normal component, the normal component is cos(atan mu) > 0, and the nrGen generators are obtained by rotating the first by multiples of 2*pi/nrGen about the normal.", "quantifier": "every orthonormal frame, every mu, every number of generators, both directions", "why_tests_cant": "real-valued trigonometric identities over all frames and coefficients", "anchors": ["src/QPContacts.cpp:FrictionCone::FrictionCone"]}
{"id": "C20", "title": "Nonnegative generator weights give forces inside the Coulomb cone", "statement": "For every contact built from a frame, mu >= 0 and any nonnegative lambda, the force at each point (force/sForce of that point) has nonnegative normal component and tangential norm at most mu times the normal component, and so does the total force.", "quantifier": "every frame, mu>=0, number of generators and points, every nonnegative lambda", "why_tests_cant": "a statement over all nonnegative combinations of arbitrarily many generators", "anchors": ["src/QPContacts.cpp:UnilateralContact::force", "src/QPContacts.cpp:FrictionCone::FrictionCone"]}
{"id": "C21", "title": "Action and reaction at a contact", "statement": "For a constructed contact, with X_b1_b2 the transform between the two bodies, the force applied on body 2 computed with the body 2 cone is the opposite of the force applied on body 1 computed with the body 1 cone, expressed in the other frame, for every lambda; and the body 2 contact points are the images of the body 1 points.", "quantifier": "every frame, relative transform (rotation), points, mu, number of generators, lambda", "why_tests_cant": "identity over all rotations and weights", "anchors": ["src/QPContacts.cpp:UnilateralContact::construct", "src/QPContacts.cpp:BilateralContact::construct"]}
{"id": "C22", "title": "A unilateral contact and its bilateral view agree", "statement": "Converting a UnilateralContact to a BilateralContact preserves the id, points, transforms, the number of lambda per point and in total, and the force computed for every point and every lambda.", "quantifier": "every unilateral contact and lambda", "why_tests_cant": "unbounded points and generators", "anchors": ["src/QPContacts.cpp:BilateralContact::BilateralContact(const UnilateralContact&)"]}
{"id": "C23", "title": "Checked contact force API", "statement": "sForce/sNrLambda return the same value as force/nrLambda when the point index is in range and lambda has the expected size, throw std::domain_error for an index outside the points or a wrong lambda size, and never read out of range. (sForce only checks lambda against the body-1 cone and points; it can read out of range when other lists of different size are passed.)", "quantifier": "every contact, index (including negative), lambda vector, and user-provided cone/point list", "why_tests_cant": "covers all sizes and every error path", "anchors": ["src/QPContacts.cpp:UnilateralContact::sForce", "src/QPContacts.cpp:BilateralContact::sForce", "src/QPContacts.cpp:checkRange"]}
{"id": "C24", "title": "Contact weights are nonnegative, accelerations are free", "statement": "The PositiveLambda bounds hold for x if and only if every contact weight in x, unilateral and bilateral, is >= 0; accelerations are not constrained by it. descBound(line) names the contact that owns the weight of that line, and nothing for lines outside the weights.", "quantifier": "every layout and x", "why_tests_cant": "all layouts and vectors", "anchors": ["src/QPMotionConstr.cpp:PositiveLambda::updateNrVars", "src/QPMotionConstr.cpp:PositiveLambda::update"]}
{"id": "C25", "title": "MotionConstr enforces the joint torque limits on the reported torque", "statement": "x satisfies the MotionConstr lines if and only if torqueL <= tau <= torqueU componentwise, where tau is the torque later reported by computeTorque(alphaDVec, lambdaVec) for the constrained robot; computeTorque followed by torque(mbs, mbcs) stores exactly those values per joint, except for the root joint whose entry is left unchanged.", "quantifier": "every robot index, layout, inertia matrix, bias, contact set (no two contact sides of the same contact on the same robot), limits possibly infinite, x", "why_tests_cant": "equivalence over all states and vectors, multi-robot offsets", "anchors": ["src/QPMotionConstr.cpp:MotionConstrCommon::computeMatrix", "src/QPMotionConstr.cpp:MotionConstrCommon::computeTorque", "src/QPMotionConstr.cpp:MotionConstr::update"]}
{"id": "C26", "title": "Torque rate limits between consecutive steps", "statement": "With torque derivative bounds, from the second update on, x satisfies the lines iff tau also satisfies torqueDL*dt <= tau - tau_prev <= torqueDU*dt with tau_prev the last torque computed; on the first update only the absolute limits apply. Hence along any execution where computeTorque is called after each solve the torque never changes by more than the rate limit after the first step.", "quantifier": "every execution (sequence of states and QP solutions) of any length", "why_tests_cant": "property of unbounded executions with state carried between steps", "anchors": ["src/QPMotionConstr.cpp:MotionConstr::update", "src/QPMotionConstr.cpp:MotionConstr::MotionConstr"]}
{"id": "C27", "title": "Spring and polynomial torque limits", "statement": "MotionSpringConstr forces the torque of each spring joint to the spring law -(K q + C alpha + O) and enforces the ordinary limits (and rate limits from the second update on) on the others; MotionPolyConstr enforces polynomial limits evaluated at q on every one-dof joint. (On joints that do not have exactly one dof the polynomial constraint forces zero torque although no bound was given.)", "quantifier": "every robot, configuration, spring list and polynomial coefficients", "why_tests_cant": "all configurations and coefficient lists", "anchors": ["src/QPMotionConstr.cpp:MotionSpringConstr::update", "src/QPMotionConstr.cpp:MotionPolyConstr::update"]}
{"id": "C28", "title": "Both sides of a self contact act on the robot", "statement": "When a contact links two bodies of the same robot, the torque computed from x includes the contact force on both bodies. (The code assigns instead of accumulating the columns, so only the second body's contribution remains, and the constraint and computeTorque agree on the wrong torque.)", "quantifier": "every contact with r1Index = r2Index", "why_tests_cant": "self contacts are absent from the test suite", "anchors": ["src/QPMotionConstr.cpp:MotionConstrCommon::computeMatrix", "src/QPMotionConstr.cpp:MotionConstrCommon::updateNrVars"]}
{"id": "C29", "title": "JointLimitsConstr keeps the next joint position inside the limits", "statement": "For a fixed-base robot with one-dof joints and step dt > 0, alphaD satisfies the bounds iff qMin <= q + alpha*dt + alphaD*dt^2/2 <= qMax, and with acceleration/jerk limits also lies in those. (For a robot with a floating base the vectors have different sizes: undefined behaviour.)", "quantifier": "every robot, state, limits (possibly infinite), step", "why_tests_cant": "equivalence for all states; floating base path is undefined behaviour", "anchors": ["src/QPConstr.cpp:JointLimitsConstr::update", "src/QPConstr.cpp:JointLimitsConstr::JointLimitsConstr"]}
{"id": "C30", "title": "Damped joint limits: velocity damper rows", "statement": "Per joint the bounds hold iff the next velocity alpha + alphaD*dt lies in [max(-damper_low, vMin), min(damper_up, vMax)] where the damper applies only when the distance to the corresponding limit is below the interaction distance, and alphaD lies in the acceleration and jerk limits.", "quantifier": "every state, damping state, limits, distances with iDist > sDist, step > 0", "why_tests_cant": "case analysis over a three-state machine and all reals", "anchors": ["src/QPConstr.cpp:DamperJointLimitsConstr::update"]}
{"id": "C31", "title": "Damped joint limits: no execution crosses the security distance", "statement": "If each step applies an acceleration satisfying the bounds and integrates q by the resulting velocity, dt*damping <= iDist - sDist, the two interaction zones do not overlap (interPercent <= 1/2) and no velocity within the velocity limits covers more than iDist - sDist in one step, then a joint that starts at least the security distance away from both limits stays so forever. (With overlapping zones it is false: only the lower damper is active.)", "quantifier": "every execution of any length, every admissible sequence of accelerations", "why_tests_cant": "invariant over unbounded executions", "anchors": ["src/QPConstr.cpp:DamperJointLimitsConstr::update", "src/QPConstr.cpp:DamperJointLimitsConstr::computeDamper"]}
{"id": "C32", "title": "Damping is chosen once per entry into the interaction zone", "statement": "The damping coefficient of a joint changes only when it enters the lower or upper interaction zone (from free or from the other zone); it is then the value that makes the damper equal to |velocity| plus the offset effect at that instant, so the bound is satisfied by the current velocity; while it stays in the zone the damping is constant and when it leaves the zone the state is Free.", "quantifier": "every sequence of states of any length", "why_tests_cant": "state machine over unbounded histories", "anchors": ["src/QPConstr.cpp:DamperJointLimitsConstr::update", "src/QPConstr.cpp:DamperJointLimitsConstr::computeDamping"]}
{"id": "C33", "title": "Collision row is the velocity damper on the distance", "statement": "For an active pair the generated inequality holds for x iff the predicted distance rate d' + d''*dt (computed with both bodies' Jacobians at x) is at least -damping*(d-ds)/(di-ds), for pairs of two movable robots; inactive pairs (d >= di) generate no row and leave x unconstrained. (When the first robot has no dof the row is built with the wrong sign and point for the second.)", "quantifier": "every set of pairs, states, x, distances, damping", "why_tests_cant": "equivalence over all states and pair combinations; fixed-first-robot ordering is untested", "anchors": ["src/QPConstr.cpp:CollisionConstr::update", "src/QPConstr.cpp:CollisionConstr::addCollision"]}
{"id": "C34", "title": "Collision registry and row counts", "statement": "addCollision/rmCollision/reset behave as a list keyed by collId (rmCollision removes the first with this id and returns whether one existed), nrCollisions is the length, after updateNrCollisions the maximum number of rows is the number of pairs and nrInEq never exceeds it, and getCollisionData returns the data of the pair with that id or throws; updating after adding pairs without reallocating writes out of range.", "quantifier": "every history of registry operations and every distance pattern", "why_tests_cant": "unbounded histories", "anchors": ["src/QPConstr.cpp:CollisionConstr::addCollision", "src/QPConstr.cpp:CollisionConstr::rmCollision", "src/QPConstr.cpp:CollisionConstr::updateNrCollisions", "src/QPConstr.cpp:CollisionConstr::getCollisionData"]}
{"id": "C35", "title": "Velocity dampers never let the distance go below the security distance", "statement": "For collision avoidance and CoM plane constraints with fixed positive damping and dt*damping <= di - ds, in exact Euler integration of the distance with the predicted rate, a distance that starts >= ds remains >= ds forever, including through activation and deactivation (assuming inactive steps cannot lose more than di-ds).", "quantifier": "every execution of any length", "why_tests_cant": "invariant over unbounded executions with switching", "anchors": ["src/QPConstr.cpp:CollisionConstr::update", "src/QPConstr.cpp:CoMIncPlaneConstr::update"]}
{"id": "C36", "title": "CoM plane rows and descriptions", "statement": "For each plane at distance dist <= di the generated inequality holds for x iff d' + d''*dt >= -damping*(dist-ds)/(di-ds) with d' the CoM speed relative to the plane (including plane motion); rows appear in plane order, their number is the number of planes with dist <= di, and descInEq names the plane of the row. (descInEq uses < instead of <= and so misattributes or reports nothing when dist = di.)", "quantifier": "every set of planes, states, x", "why_tests_cant": "boundary dist = di and arbitrary activation patterns", "anchors": ["src/QPConstr.cpp:CoMIncPlaneConstr::update", "src/QPConstr.cpp:CoMIncPlaneConstr::descInEq", "src/QPConstr.cpp:CoMIncPlaneConstr::rmPlane"]}
{"id": "C37", "title": "Gripper torque constraint bounds the gripper torque", "statement": "If lambda >= 0 and the row of a registered gripper holds then the torque about the gripper axis produced by the contact forces is at most the torque limit; grippers whose contact is not in the problem generate a vacuous row. The description of a violated row names that gripper. (The code compresses rows, so descriptions are shifted after a gripper whose contact is absent.)", "quantifier": "every set of grippers and contacts, every nonnegative lambda", "why_tests_cant": "all weights and contact combinations", "anchors": ["src/QPConstr.cpp:GripperTorqueConstr::update", "src/QPConstr.cpp:GripperTorqueConstr::descInEq"]}
{"id": "C38", "title": "Bounded speed rows", "statement": "x satisfies the rows of BoundedSpeedConstr iff for every registered body, lSpeed <= dof*(v + a(x)*dt) <= uSpeed componentwise, where a(x) is the body point acceleration produced by x; rows of different bodies are stacked without overlap in registration order; removeBoundedSpeed removes the first entry for the body and reports whether there was one.", "quantifier": "every set of bodies, dof selection matrices with any number of rows, states, x", "why_tests_cant": "stacking of arbitrary row counts and all vectors", "anchors": ["src/QPConstr.cpp:BoundedSpeedConstr::update", "src/QPConstr.cpp:BoundedSpeedConstr::updateNrVars", "src/QPConstr.cpp:BoundedSpeedConstr::removeBoundedSpeed"]}
{"id": "C39", "title": "Image constraint keeps points damped inside the safe image region", "statement": "For each image point and each image border, when the point is inside the interaction zone (between interaction and security limits, or beyond the security limit) a row enforces the velocity damper toward that border; otherwise no row is produced. (The code produces no row for a point beyond the security limit, exactly where avoidance matters most.)", "quantifier": "every set of points and limits, FoV and occlusion directions, states and x", "why_tests_cant": "region case analysis over all reals", "anchors": ["src/QPConstr.cpp:ImageConstr::update", "src/QPConstr.cpp:ImageConstr::setLimits"]}
{"id": "C40", "title": "Contact motion constraints", "statement": "x satisfies the equality rows iff for every non-virtual contact in the problem the relative acceleration (ContactAccConstr), the relative velocity after dt (ContactSpeedConstr), or the relative velocity corrected by the position error (ContactPosConstr) of the two contact frames is zero on the selected dofs; contacts added as virtual generate no row; dof contacts generate exactly dof.rows() rows; rows are stacked without overlap.", "quantifier": "every set of contacts, virtual/dof modifiers, states, x, any number of robots", "why_tests_cant": "unbounded contact sets with modifiers", "anchors": ["src/QPContactConstr.cpp:ContactConstr::updateNrVars", "src/QPContactConstr.cpp:ContactAccConstr::update", "src/QPContactConstr.cpp:ContactSpeedConstr::update", "src/QPContactConstr.cpp:ContactPosConstr::update"]}
{"id": "C41", "title": "Virtual and dof contact registries", "statement": "add/remove/reset of virtual and dof contacts behave as a set and a map keyed by ContactId with truthful return values, addDofContact keeps the first matrix, queries do not change the registry. (dofContact(id) on an unknown id inserts an empty matrix, after which updateNrVars uses that empty matrix instead of the identity.)", "quantifier": "every history of registry operations", "why_tests_cant": "unbounded histories; a query with a side effect", "anchors": ["src/QPContactConstr.cpp:ContactConstrCommon"]}
{"id": "C42", "title": "Contacts sharing the same id are constrained once", "statement": "The contacts taken from the solver data are deduplicated by contact id, keep only contacts where at least one robot has dofs and that are not virtual; sizes satisfy nrEq <= maxEq when every dof matrix has at most six rows, and descEq names the contact of the row. (descEq divides by six, so it misattributes when some dof matrix has fewer rows; more than six rows overflow the allocated matrix.)", "quantifier": "every contact list and dof modifiers", "why_tests_cant": "arbitrary mixes of row counts", "anchors": ["src/QPContactConstr.cpp:ContactConstrCommon::contactCommonInContact", "src/QPContactConstr.cpp:ContactConstr::descEq", "src/QPContactConstr.cpp:ContactConstr::updateNrEq"]}
{"id": "C43", "title": "Set-point task objectives are weighted least squares", "statement": "For every x the objective of a SetPoint/Tracking/Trajectory/PID task equals 1/2 ||J a + normalAcc - target||^2_W minus a constant independent of x, where target is the task's PD(+feed-forward) acceleration; so with W >= 0 it is convex and any a achieving J a + normalAcc = target minimises it. SetPointTask's target is k*eval - 2*sqrt(k)*speed (critically damped).", "quantifier": "every Jacobian, error, speed, weights, gains, x", "why_tests_cant": "identity over all vectors and dimensions", "anchors": ["src/QPTasks.cpp:SetPointTaskCommon::computeQC", "src/QPTasks.cpp:SetPointTask::update", "src/QPTasks.cpp:TrackingTask::update", "src/QPTasks.cpp:TrajectoryTask::update"]}
{"id": "C44", "title": "Task updates depend only on the current inputs", "statement": "Updating a task twice with the same inputs gives the same objective as updating it once. (PIDTask overwrites its stored error on each update, so repeated updates without a new error(...) compound the gain.)", "quantifier": "every task state and input", "why_tests_cant": "needs two-step histories over all inputs", "anchors": ["src/QPTasks.cpp:PIDTask::update", "src/QPTasks.cpp:SetPointTaskCommon::computeQC"]}
{"id": "C45", "title": "TargetObjectiveTask reaches the objective in the remaining time", "statement": "At each update before the last iteration, the computed phi and psi are the endpoints of the unique acceleration profile linear in time over the remaining duration that brings the task error to zero with final velocity objDot. (At the last iteration the remaining time is zero: division by zero, and it is negative afterwards.)", "quantifier": "every error, speed, target velocity, step, iteration", "why_tests_cant": "all reals and the boundary iteration", "anchors": ["src/QPTasks.cpp:TargetObjectiveTask::update", "src/QPTasks.cpp:TargetObjectiveTask::duration"]}
{"id": "C46", "title": "JointsSelector only moves the selected joints", "statement": "The Jacobian of JointsSelector equals the wrapped Jacobian on the columns of the selected joints/dofs and is zero elsewhere, for ActiveJoints exactly the listed joints, for UnactiveJoints exactly the others, with dof-level selections honoured. (UnactiveJoints ignores the dof-level selection.)", "quantifier": "every robot, joint lists, dof selections, Jacobian", "why_tests_cant": "unbounded joint structures", "anchors": ["src/QPTasks.cpp:JointsSelector::ActiveJoints", "src/QPTasks.cpp:JointsSelector::UnactiveJoints", "src/QPTasks.cpp:JointsSelector::update"]}
{"id": "C47", "title": "Posture task drives each joint to its target", "statement": "The posture error vector has at each one-dof joint's position target - q, zero on the base, each entry at the joint's own dof position, and the objective is the weighted least squares of alphaD - (k*err - d*(alpha - refVel) + refAccel) on the non-base dofs. (Joints with 2 or 6 dof inside the tree shift the errors of all later joints; planar joints read past the configuration.)", "quantifier": "every joint structure and configuration", "why_tests_cant": "positions are computed by a running counter over arbitrary joint sequences", "anchors": ["src/Tasks.cpp:PostureTask::update", "src/QPTasks.cpp:PostureTask::update"]}
{"id": "C48", "title": "Torque task penalises the joint torques", "statement": "The TorqueTask objective equals 1/2 ||S^(1/2) tau(x)||^2 minus a constant, with tau(x) the torque that MotionConstr would report for x, i.e. it penalises exactly the selected joints' torques.", "quantifier": "every robot, layout, selection, x", "why_tests_cant": "identity over all vectors", "anchors": ["src/QPTasks.cpp:TorqueTask::update"]}
{"id": "C49", "title": "Multi-robot tasks optimise the joint error", "statement": "MultiCoMTask's objective is 1/2 ||sum_r J_r a_r + normalAcc - target||^2_W minus a constant (and similarly for MultiRobotTransformTask); robot weights sum to one. (The code only fills the diagonal blocks of Q, dropping the cross terms, so with two or more robots the minimiser overshoots.)", "quantifier": "every set of robots and states", "why_tests_cant": "identity over all vectors; wrong only with two or more mobile robots", "anchors": ["src/QPTasks.cpp:MultiCoMTask::update", "src/QPTasks.cpp:MultiRobotTransformTask::update", "src/Tasks.cpp:MultiCoMTask::computeRobotsWeight"]}
{"id": "C50", "title": "Contact force tasks act on the right contact", "statement": "ContactTask and GripperTorqueTask place their objective on the lambda range of the contact with the given id and are empty when it is absent; ContactTask's objective is 1/2||f(lambda) - target||^2 minus a constant with f the total generator force; GripperTorqueTask's linear objective is the gripper torque of lambda.", "quantifier": "every contact list, id, lambda", "why_tests_cant": "unbounded contacts and generators", "anchors": ["src/QPTasks.cpp:ContactTask::updateNrVars", "src/QPTasks.cpp:ContactTask::update", "src/QPTasks.cpp:GripperTorqueTask::update"]}
{"id": "C51", "title": "Reported task speed is the Jacobian applied to the velocity", "statement": "For SurfaceTransformTask, VectorOrientationTask and MultiRobotTransformTask, speed equals jac times the joint velocity (given that the underlying body Jacobian does), so the PD term damps the motion the Jacobian controls.", "quantifier": "every state, Jacobian, velocity and error", "why_tests_cant": "linear-algebra identity over all states", "anchors": ["src/Tasks.cpp:SurfaceTransformTask::update", "src/Tasks.cpp:VectorOrientationTask::update", "src/Tasks.cpp:MultiRobotTransformTask::update"]}
{"id": "C52", "title": "Changing the controlled point changes the controlled error", "statement": "After bodyPoint(p) PositionTask's eval, speed, normal acceleration and Jacobian all refer to the new point p. (The code updates the Jacobian only; eval keeps the constructor's point.)", "quantifier": "every point and state", "why_tests_cant": "getter returns the new value, so simple tests pass", "anchors": ["src/Tasks.cpp:PositionTask::bodyPoint", "src/Tasks.cpp:PositionTask::update"]}
{"id": "C53", "title": "Orientation tracking uses only the tracking joints", "statement": "The OrientationTrackingTask Jacobian has zero columns for every joint of the path that is not listed as tracking joint and the body Jacobian's columns for the listed ones.", "quantifier": "every joint path, dof counts, selection", "why_tests_cant": "running position over arbitrary joint dof sequences", "anchors": ["src/Tasks.cpp:OrientationTrackingTask::OrientationTrackingTask", "src/Tasks.cpp:OrientationTrackingTask::zeroJacobian"]}
{"id": "C54", "title": "Normal accelerations follow the kinematic recursion", "statement": "After computeNormalAccB, for every movable robot and joint the successor body's normal acceleration is X_p_i * (predecessor's) + v_body x v_joint, with zero predecessor acceleration at the root, for joints ordered parent first; values do not depend on what was stored before; fixed robots keep zero.", "quantifier": "every kinematic tree and state, every previous content", "why_tests_cant": "unbounded trees and stale content", "anchors": ["src/QPSolverData.cpp:SolverData::computeNormalAccB"]}
{"id": "C55", "title": "End-to-end guarantee of a successful solve", "statement": "If solve succeeds, the backend returns a point satisfying the lines and bounds it was given, sizes are up to date, bound constraints do not overlap, mimic dependencies are well-formed with non-zero multipliers and the backend was not changed since nrVars, then the accelerations written to the robots together with lambdaVec() satisfy every registered constraint, the mimic relations hold, and no feasible full vector obeying the mimic relations has a smaller objective.", "quantifier": "every problem and every backend meeting its contract", "why_tests_cant": "composition of assembly, reduction, solution and expansion over unbounded problems", "anchors": ["src/QPSolver.cpp:QPSolver::solve", "src/QLDQPSolver.cpp", "src/LSSOLQPSolver.cpp", "src/GenQPUtils.h"]}
{"id": "C56", "title": "Damped joint limits depend on the current state only", "statement": "Two executions with the same parameters and the same damping state that are updated with the same robot state produce the same bounds, whatever they went through before.", "quantifier": "every pair of executions", "why_tests_cant": "history dependence shows only after particular sequences of states", "anchors": ["src/QPConstr.cpp:DamperJointLimitsConstr::update", "src/QPConstr.cpp:DamperJointLimitsConstr::DamperJointLimitsConstr"]}
{"id": "C57", "title": "Automatic damping admits the current motion and standing still", "statement": "When no damping is given (automatic damping with a nonnegative offset), the damper of a collision pair or of a CoM plane outside its security distance admits both the current rate of the distance and stopping: -damping*(d-ds)/(di-ds) is at most the current rate and at most 0. (False for CoM planes from which the CoM moves away: the automatic damping is negative and forbids slowing down.)", "quantifier": "every state, pair and plane", "why_tests_cant": "sign of the motion at the moment of activation decides", "anchors": ["src/QPConstr.cpp:CollisionConstr::computeDamping", "src/QPConstr.cpp:CoMIncPlaneConstr::update"]}
{"id": "C58", "title": "Normal acceleration is the drift of the task speed", "statement": "Along every differentiable motion of the robot the time derivative of a task's speed() is jac() times the joint accelerations plus normalAcc(), for position, orientation, surface orientation, vector orientation, transform, surface transform, multi-robot transform and visual-servoing tasks; for the linear velocity task minus this is the derivative of eval(). So a zero residual of the task equation is exactly the commanded task acceleration.", "quantifier": "every kinematic path, every differentiable joint motion, every frame, point and target", "why_tests_cant": "tests compare with finite differences at sample states; the identity is an exact statement on all trajectories", "anchors": ["src/Tasks.cpp:PositionTask::update", "src/Tasks.cpp:OrientationTask::update", "src/Tasks.cpp:SurfaceTransformTask::update", "src/Tasks.cpp:TransformTask::update", "src/Tasks.cpp:MultiRobotTransformTask::update", "src/Tasks.cpp:VectorOrientationTask::update", "src/Tasks.cpp:LinVelocityTask::update", "src/Tasks.cpp:GazeTask::update"]}
{"id": "C59", "title": "The reported error decreases at the reported speed", "statement": "Along every differentiable motion the time derivative of eval() is minus speed() for PositionTask with the body point it was built with, for VectorOrientationTask and for the translation part of TransformTask, SurfaceTransformTask and MultiRobotTransformTask, so that the damping and stiffness terms act on the same quantity. (A PositionTask whose point was changed with bodyPoint does not do this.)", "quantifier": "every kinematic path, every differentiable joint motion, every target", "why_tests_cant": "a sign or frame error shows only on particular motions", "anchors": ["src/Tasks.cpp:PositionTask::update", "src/Tasks.cpp:VectorOrientationTask::update", "src/Tasks.cpp:TransformTask::update", "src/Tasks.cpp:SurfaceTransformTask::update", "src/Tasks.cpp:MultiRobotTransformTask::update"]}
{"id": "C60", "title": "Relative distance task: speed, Jacobian and error agree", "statement": "For the relative-distance task the error is the difference of the two distances (distance to the environment point, or absolute distance along the given vector), speed() is jac() times the joint velocities, and along every differentiable motion on which no distance is zero eval() decreases at speed(). With given vectors this needs both points on the positive side. The speed's drift is normalAcc() when the directions' rates are exact.", "quantifier": "every robot, path, differentiable joint motion, pair of points and vectors", "why_tests_cant": "tests use one configuration on one side of the environment point", "anchors": ["src/Tasks.cpp:RelativeDistTask::update", "src/Tasks.cpp:RelativeDistTask::RelativeDistTask"]}
{"id": "C61", "title": "CoM tasks control the centre of mass", "statement": "The error of a CoM task is the target minus the robot's centre of mass, its speed is its Jacobian applied to the joint velocities and its normal acceleration is the drift of this speed along every motion; without body weights (and for the multi-robot CoM task always) the error decreases at the reported speed. New inertial parameters take effect as if the task had been built with them; a weight vector of the wrong size is rejected.", "quantifier": "every robot, inertial parameters, weights, history of calls and differentiable motion", "why_tests_cant": "tests compare with finite differences for one robot and never change the weights or the inertial parameters", "anchors": ["src/Tasks.cpp:CoMTask::update", "src/Tasks.cpp:CoMTask::updateInertialParameters", "src/Tasks.cpp:MultiCoMTask::update", "src/QPTasks.cpp:CoMTask::update"]}
{"id": "C62", "title": "Set-point and trajectory tasks converge", "statement": "If at every instant the robot's accelerations minimise the objective of a set-point task whose target acceleration can be reached, every component of the error follows the critically damped response of the stiffness k given last, (e0 + (e0' + w e0) t) exp(-w t) with w = sqrt k: it tends to zero when k > 0 and, from rest, never grows nor changes sign. This holds for position tasks and for CoM tasks without body weights along every motion of the robot. With a trajectory task of positive gains, the error with respect to a moving reference tends to zero exponentially.", "quantifier": "every robot, differentiable motion, history of calls before each update, stiffness, gains, weights and reference", "why_tests_cant": "tests run the loop for a finite number of integration steps with one stiffness and compare the final error with a tolerance", "anchors": ["src/QPTasks.cpp:SetPointTask::update", "src/QPTasks.cpp:TrajectoryTask::update", "src/QPTasks.cpp:SetPointTaskCommon::computeQC", "src/Tasks.cpp:PositionTask::update", "src/Tasks.cpp:CoMTask::update"]}
{"id": "C63", "title": "Contact constraints keep contacts fixed", "statement": "If at every instant the accelerations satisfy the rows of a contact constraint, the relative velocity of the two contact frames, in every selected direction, is constant (ContactAccConstr), decreases as exp(-t/dt) (ContactSpeedConstr), or is driven to the position error (ContactPosConstr). For a contact without dof selection in the first two cases, contact frames that coincide and have no relative velocity at the start coincide at every later time, in position and orientation, whatever calls were made before each update and whether the other robot is mobile or not.", "quantifier": "every set of robots, differentiable motion, contact geometry, time step and history of calls on the constraint", "why_tests_cant": "tests integrate one robot for a few hundred discrete steps and check the contact with a tolerance; they can neither separate the integration error from the constraint nor cover all motions", "anchors": ["src/QPContactConstr.cpp:ContactAccConstr::update", "src/QPContactConstr.cpp:ContactSpeedConstr::update", "src/QPContactConstr.cpp:ContactPosConstr::update", "src/QPContactConstr.cpp:ContactConstrCommon::updateNrVars"]}
{"id": "C64", "title": "Momentum task controls the momentum of the robot", "statement": "For every robot with mass, MomentumTask's error is the target minus the linear momentum and the angular momentum about the centre of mass, computed from any particles the bodies' inertias are made of; its Jacobian applied to the joint velocities is that momentum, and Jacobian times joint accelerations plus normal acceleration is its derivative. The reported speed is zero. In a SetPointTask whose target is reached, the error of MomentumTask and of LinVelocityTask (both errors of first order) is its initial value times exp(-k t). A robot without mass gives a division by zero.", "quantifier": "every robot, inertia, differentiable motion, target and time", "why_tests_cant": "tests compare the Jacobian with finite differences at sampled configurations of one robot; no test relates the value to the mechanics of all mass distributions nor to the closed loop", "anchors": ["src/Tasks.cpp:MomentumTask::update", "src/QPTasks.cpp:MomentumTask", "src/Tasks.cpp:LinVelocityTask::update", "src/QPTasks.cpp:SetPointTask::update"]}
{"id": "C65", "title": "Visual servoing tasks follow what the camera sees", "statement": "For every robot carrying a camera, every differentiable motion and every point fixed in the world with non-zero depth: GazeTask told at each instant what the camera sees (error(point3d, ref)) has as error the reference minus the projection, the time derivative of the error is minus the reported speed, the Jacobian times the joint velocities is the speed, and Jacobian times joint accelerations plus normal acceleration is the derivative of the speed. With error(point2d, ref) the depth stays the earlier estimate. For PositionBasedVisServoTask the same holds for the translation of the sensor relative to a fixed target.", "quantifier": "every robot, differentiable motion, camera frame, world point, reference, RBDyn depth-rate function and pose Jacobian", "why_tests_cant": "the only test updates the tasks to look for memory allocation; no test compares their derivatives with any motion", "anchors": ["src/Tasks.cpp:GazeTask::update", "src/Tasks.cpp:GazeTask::error", "src/Tasks.cpp:PositionBasedVisServoTask::update", "src/QPTasks.cpp:GazeTask"]}
{"id": "C66", "title": "Orientation tracking in the quadratic program", "statement": "OrientationTrackingTask in the quadratic program, after any sequence of updates and updateDot calls: each update is defined, the reported speed is the Jacobian restricted to the tracking joints times the joint velocities, and the reported normal acceleration is the drift of that speed (Jacobian times accelerations plus normal acceleration is the time derivative of the speed).", "quantifier": "every robot, tracking joint set, history of updates, state and differentiable motion, initial memory content", "why_tests_cant": "no test updates this task; the value depends on memory content that a run may happen to have zeroed", "anchors": ["src/QPTasks.cpp:OrientationTrackingTask::update", "src/Tasks.cpp:OrientationTrackingTask::updateDot", "src/Tasks.cpp:OrientationTrackingTask::zeroJacobian"]}
{"id": "C67", "title": "Setting a target changes the error and nothing else", "statement": "position(), velocity(), orientation(), target(), com(), momentum() of the motion tasks: until the next update nothing reported changes; after it speed, normal acceleration and Jacobian are what they would have been without the call, and the error moves by exactly the change of the target (for rotations: is the rotation error to the new target). If the update without the call fails, so does the update with it. In the quadratic program a set-point task keeps its quadratic part and its linear part moves by minus stiffness times Jacobian transposed times weighted change.", "quantifier": "every task state, target, robot state, including those on which the update is undefined", "why_tests_cant": "tests set one target before one sequence of updates; they never compare two targets on the same state", "anchors": ["src/Tasks.cpp:PositionTask::position", "src/Tasks.cpp:OrientationTask::orientation", "src/Tasks.cpp:TransformTask", "src/Tasks.cpp:CoMTask::com", "src/Tasks.cpp:MomentumTask::momentum", "src/Tasks.cpp:MultiCoMTask::com", "src/QPTasks.cpp:SetPointTask::update"]}
{"id": "C68", "title": "The matrices a motion constraint reports", "statement": "After each update matrix() times the variables plus the bias term is the inverse dynamics torque of the constrained robot, and contactMatrix() times the contact weights is the contacts' part of it (minus the generalised force of the contacts), for any number of robots in the problem.", "quantifier": "every robot, contact list, history of updates, dynamics data, variables, and set of other robots", "why_tests_cant": "no test calls contactMatrix(); the single-robot layout hides the column offset", "anchors": ["src/QPMotionConstr.cpp:MotionConstrCommon::contactMatrix", "src/QPMotionConstr.cpp:MotionConstr::matrix", "src/QPMotionConstr.cpp:MotionConstrCommon::computeMatrix"]}
{"id": "C69", "title": "Target objective tasks arrive on time", "statement": "With TargetObjectiveTask, a minimiser of its objective applied in each control period and the acceleration held within the period: at the end of the duration the error is exactly zero and the error speed is exactly the requested one.", "quantifier": "every initial error and speed, every requested end speed, period and duration", "why_tests_cant": "the test runs one duration and checks the final error within a tolerance; exactness and short durations are not sampled", "anchors": ["src/QPTasks.cpp:TargetObjectiveTask::update", "src/QPTasks.cpp:TargetObjectiveTask::duration"]}
{"id": "C70", "title": "Multi-robot tasks converge as critically damped systems", "statement": "MultiCoMTask and MultiRobotTransformTask of stiffness k with the default damping: when the minimiser of the objective is applied at all times, the error follows the critically damped response of stiffness k from its initial state, whatever the number of robots.", "quantifier": "every list of robots, motion, state, stiffness, weights and dimension weights", "why_tests_cant": "a test sees that the error is small at the end; the rate of convergence for several robots is a statement on all motions", "anchors": ["src/QPTasks.cpp:MultiCoMTask::update", "src/QPTasks.cpp:MultiRobotTransformTask::update", "src/Tasks.cpp:MultiCoMTask::update"]}
{"id": "C71", "title": "Raising a task's weight never worsens that task", "statement": "Two control steps with the same constraints and the same tasks, except that one task has a larger weight in the second: the unweighted error cost of that task is not larger in the second result. Multiplying all weights by the same positive number does not change which results are optimal.", "quantifier": "every robot, set of tasks and constraints, weight, backend and numerical solver meeting its contract", "why_tests_cant": "a test tries a few weights on one robot; monotonicity for all weights and all task sets is not a finite check", "anchors": ["src/GenQPUtils.h:fillQC", "src/QPSolver.cpp:QPSolver::solve", "src/QPTasks.cpp:weight"]}
{"id": "C72", "title": "Compatible tasks are all achieved, whatever the weights", "statement": "When some point that respects the constraints and mimic joints minimises every registered task at once, the result of a successful solve minimises every task, for all positive weights.", "quantifier": "every robot, set of compatible tasks, weights, constraints, backend and numerical solver meeting its contract", "why_tests_cant": "a test uses one weight per task; that weights are irrelevant for compatible tasks is a statement on all of them", "anchors": ["src/GenQPUtils.h:fillQC", "src/QPSolver.cpp:QPSolver::solve"]}
{"id": "C73", "title": "The result of a solve depends on the problem only", "statement": "Two successful solves of the same tasks, constraints and robots give the same result, whatever the backend (QLD or LSSOL), the order of earlier calls, and the initial memory.", "quantifier": "every problem, pair of backends, histories of calls and numerical solvers meeting their contract", "why_tests_cant": "tests compare two backends on one problem within a tolerance; LSSOL is usually not available to the tests", "anchors": ["src/QLDQPSolver.cpp", "src/LSSOLQPSolver.cpp", "src/GenQPUtils.h:fillQC", "src/QPSolver.cpp:QPSolver::solve"]}
{"id": "C74", "title": "Compatible tasks in one solver all converge, each at its own rate", "statement": "A solver is called at every time with any number of tasks and constraints, and some admissible acceleration achieves all tasks at once. Then the error of every SetPointTask among them follows the critically damped response of its own stiffness, whatever the weights and the other tasks; with a positive stiffness it tends to zero, and from rest it does not overshoot.", "quantifier": "every robot, set of compatible tasks, weights, stiffnesses, constraints, backend and numerical solver meeting its contract; all times", "why_tests_cant": "a test simulates a few seconds of one set of tasks; convergence is a limit and the weights range over all positive numbers", "anchors": ["src/QPTasks.cpp:SetPointTask", "src/GenQPUtils.h:fillQC", "src/QPSolver.cpp:QPSolver::solve"]}
{"id": "C75", "title": "Damped joint limits hold in closed loop", "statement": "A robot is controlled by repeated successful solves with a DamperJointLimitsConstr registered. A one-dof joint that starts outside the interaction zones and whose velocity limits allow at most about half of the damping zone per step stays at least the security distance away from both its limits, whatever the tasks and other constraints ask.", "quantifier": "every robot, limits, zones, number of steps, tasks, constraints, backend and numerical solver meeting its contract; any initial damping state", "why_tests_cant": "a simulation covers finitely many steps of one scenario; the violation for faster joints needs a particular speed at the entry of the zone", "anchors": ["src/QPConstr.cpp:DamperJointLimitsConstr", "src/QPSolver.cpp:QPSolver::solve"]}
{"id": "C76", "title": "A solution is physically feasible", "statement": "After a successful solve with PositiveLambda and MotionConstr registered, the contact forces made from the reported weights are in the friction cones of the contacts on both bodies, and the torques computed from the reported accelerations and weights satisfy the equation of motion and the torque and torque rate limits. A joint whose torque limits are zero is moved by inertia, bias and contact forces only.", "quantifier": "every robot, contacts with orthonormal frames and nonnegative friction, torque limits, other tasks and constraints, backend and numerical solver meeting its contract", "why_tests_cant": "tests check a few postures within a tolerance; feasibility for every solved problem is not a finite check", "anchors": ["src/QPConstr.cpp:PositiveLambda", "src/QPMotionConstr.cpp:MotionConstr", "src/QPContacts.cpp", "src/QPSolver.cpp:QPSolver::lambdaVec"]}
{"id": "C77", "title": "Orientation errors vanish exactly at the target and change at the reported speed", "statement": "For every orientation or transform task (body, surface, or between two robots) less than half a turn away from its target: the error is zero exactly when the target orientation (and position) is reached, and along every motion of the robot the squared norm of the orientation error changes at the rate given by the reported error and the reported speed, so that moving along the error reduces the distance to the target.", "quantifier": "every robot, joint path, frame, target and motion; every function giving rotation vectors, in particular the formula of SpaceVecAlg", "why_tests_cant": "a finite difference test checks a few directions up to a tolerance; the claim is about all orientations up to half a turn, including near zero where the formula divides by a small sine", "anchors": ["src/Tasks.cpp:OrientationTask::update", "src/Tasks.cpp:SurfaceOrientationTask::update", "src/Tasks.cpp:TransformTask::update", "src/Tasks.cpp:SurfaceTransformTask::update", "src/Tasks.cpp:MultiRobotTransformTask::update"]}
{"id": "C78", "title": "Orientation set-point tasks bring the frame to the target orientation", "statement": "The robot is driven by a SetPointTask over an orientation or transform task, with a positive stiffness k and a reachable target acceleration. If it starts less than half a turn away and k |error|^2 + |speed|^2 < k pi^2, then it stays less than half a turn away, k |error|^2 + |speed|^2 never grows, and error, speed and the difference between the orientation and its target vanish exponentially; the position of a transform task goes to its target too.", "quantifier": "every robot, joint path, frame, target, stiffness, weights, calls on the task before each update, and initial state within the bound; all times", "why_tests_cant": "convergence is a limit over an infinite time on a curved space; simulations only sample initial orientations", "anchors": ["src/Tasks.cpp:OrientationTask::update", "src/Tasks.cpp:SurfaceOrientationTask::update", "src/Tasks.cpp:TransformTask::update", "src/QPTasks.cpp:SetPointTask"]}
{"id": "C79", "title": "jacDot() is the time derivative of jac()", "statement": "After updateDot, the matrix jacDot() of the position, orientation, surface orientation, velocity, centre of mass and momentum tasks is the time derivative, along the motion of the robot, of the matrix jac() returns after update; therefore jacDot() times the joint velocities is the normal acceleration the task reports.", "quantifier": "every robot, joint path, point, surface frame, mass distribution and differentiable motion", "why_tests_cant": "a finite difference test compares a few states up to a tolerance, and uses frames aligned with their body", "anchors": ["src/Tasks.cpp:PositionTask::updateDot", "src/Tasks.cpp:OrientationTask::updateDot", "src/Tasks.cpp:SurfaceOrientationTask::updateDot", "src/Tasks.cpp:CoMTask::updateDot", "src/Tasks.cpp:MomentumTask::updateDot", "src/Tasks.cpp:LinVelocityTask::updateDot"]}
{"id": "C80", "title": "Along the motion itself, dampers keep the centre of mass behind its planes and bounded speeds stay bounded", "statement": "Closed loop in continuous time: at every instant the constraint is updated with the current configuration, a call of solve succeeds with the constraint registered, and the robot moves with the accelerations of the result. (a) CoMIncPlaneConstr: a fixed plane added with damping c > 0 such that 4 c dt <= di - ds. If the centre of mass starts at least the security distance away with an approach speed at most r times the distance left (r a rate with c = r (1 - r dt) (di - ds); one is at least 1/(2 dt)), and approaches at most at r (di - ds) outside the interaction distance, it stays at least the security distance away for ever. Without the condition on the damping the centre of mass can cross the security distance, even when c dt <= di - ds. (b) BoundedSpeedConstr: a selected component of the velocity of a registered body that starts within its bounds stays within them.", "quantifier": "All robots, differentiable motions, planes, bodies, selection matrices, bounds, tasks, other constraints, backends and exact numerical solvers; all times t >= 0.", "why_tests_cant": "A test integrates one motion with one step size; the claim is a differential inequality about all motions.", "anchors": ["src/QPConstr.cpp:707-769 CoMIncPlaneConstr::update", "src/QPConstr.cpp:975-1012 BoundedSpeedConstr::update", "src/QPSolver.cpp solve"]}
{"id": "C81", "title": "Contact position constraints bring the two contact frames together, at a rate that does not depend on the time step", "statement": "Closed loop in continuous time: a ContactPosConstr with time step dt is updated at every instant, after any sequence of nrVars calls and changes of the selection matrices, and the robots move with accelerations that satisfy its rows. For a contact without selection matrix whose two frames start less than half a turn apart with (angle)^2 + dt |relative angular velocity|^2 < pi^2, the frames stay less than half a turn apart, that sum never grows, and the differences in position, orientation and velocity vanish exponentially, whether one or both robots move (with both, provided the velocity of the second frame is bounded). Because the rows read v + a dt = error where the header announces error/dt, the error does not vanish within a few time steps: for every s in (1, 2] there is a motion with dt = (s-1)/s^2 on which the angle is exactly exp(-s t), so that the time taken is about a second however small dt is.", "quantifier": "All robots, contacts, frames, differentiable motions, tasks and other constraints; all functions sva::rotationVelocity that return the rotation vector; all times t >= 0.", "why_tests_cant": "A test integrates one motion with one time step; the claim is about all motions, and about the limit of small time steps.", "anchors": ["src/QPContactConstr.cpp:299-351 ContactPosConstr::update", "src/Tasks/QPContactConstr.h ContactPosConstr"]}
{"id": "C82", "title": "Joint limit constraints depend on how the accelerations are integrated", "statement": "Closed loop through the solver; after each solve the position advances with the mean (1 - theta) v + theta v' of the old and the new velocity (theta = 1: semi-implicit Euler, 1/2: exact motion under a constant acceleration, 0: explicit Euler). (a) DamperJointLimitsConstr: R is the width between interaction and security distances, m the largest displacement per step within the velocity limits, zones do not overlap. A one-dof joint that starts outside the zones stays at least the security distance away from its limits if R m + off dt (R - m) <= kappa R (R - m) for a kappa with kappa (theta rho + 1 - theta) <= rho (1 - rho), 0 < rho <= 1; without offset, m <= R/5 suffices for explicit Euler and m <= 12/47 R for the exact motion. Half of the zone per step, which is safe for theta = 1, is not for any theta <= 9/10. (b) JointLimitsConstr: for theta = 1/2 every step ends within the position limits; for every other theta some step from a state within the limits ends beyond one.", "quantifier": "All robots, one-dof joints, limits, time steps, tasks, other constraints, backends and exact numerical solvers; any number of steps.", "why_tests_cant": "A test runs one robot with one integrator; the claim quantifies over integrators, gains and all step sequences.", "anchors": ["src/QPConstr.cpp:108-130 JointLimitsConstr::update", "src/QPConstr.cpp:234-285 DamperJointLimitsConstr::update", "src/QPSolver.cpp solve"]}
{"id": "C83", "title": "Damped joint limits stay satisfiable, plain position limits do not", "statement": "In the loop of the previous property, started within the velocity limits: if these allow standing still and every acceleration x with |x| dt^2 <= kappa m is within the acceleration and jerk limits, then after any number of steps the bounds that DamperJointLimitsConstr gives to the joint can be satisfied, and by such an acceleration. With acceleration limits just below this value the bounds can become empty after two steps. The bounds of JointLimitsConstr become empty if the acceleration limit is below twice (speed)/(dt): a solver step that respects every bound takes the joint onto its limit at full speed, and the next problem has no solution.", "quantifier": "All robots, one-dof joints, limits, integrations (theta in [0, 1]), time steps, tasks, other constraints, backends and exact numerical solvers; any number of steps.", "why_tests_cant": "A test sees the failures of the runs it makes; that no run ever reaches an infeasible problem is a statement about all runs.", "anchors": ["src/QPConstr.cpp:108-130 JointLimitsConstr::update", "src/QPConstr.cpp:234-285 DamperJointLimitsConstr::update"]}
{"id": "C84", "title": "A solve with an inexact numerical solver is inexact by no more than the solver", "statement": "Numerical solvers answer up to tolerances: suppose that every answer reported as successful satisfies the lines of the problem given to the solver up to eps, is within eps of a point that respects its bounds, and is within delta of its optimum. Then after a successful solve every active line of every registered equality, inequality and general inequality holds up to eps in its own units; every bound on a variable that is not the acceleration of a mimic joint holds up to eps, and on a mimic joint with multiplier m up to |m| eps; all the mimic relations hold exactly; no vector that satisfies every constraint has a weighted objective smaller by more than delta; the accelerations written to the robots and lambdaVec() are the result. With eps = delta = 0 this is the end-to-end property of an exact solver.", "quantifier": "All robots, mimic joints, contacts, tasks, constraints, histories of calls, both backends, all tolerances and all numerical solvers meeting them.", "why_tests_cant": "A test compares with one solver and one tolerance; that assembly, reduction of the mimic joints and expansion never amplify the error is a statement about all problems.", "anchors": ["src/QPSolver.cpp solve", "src/GenQPUtils.h fill and reduction functions", "src/QLDQPSolver.cpp", "src/LSSOLQPSolver.cpp"]}
{"id": "C85", "title": "Damped joint limits with an inexact solver: the offset keeps errors from accumulating", "statement": "Closed loop of DamperJointLimitsConstr through a solver of tolerance eps, positions advanced with the new velocity. R is the width between interaction and security distances. If the damping offset off is positive and the displacement allowed by the velocity limits in one step, increased by eps dt^2, satisfies the step condition of the exact case, a one-dof joint that is not a mimic joint and starts outside the zones never comes closer to its limits than the security distance minus eps dt R / off, after any number of steps. Without offset there is no such bound: for every eps > 0 and every distance B there is a run, with optimal answers within eps, that ends more than B beyond the limit.", "quantifier": "All robots, one-dof joints, limits, time steps, tolerances, tasks, other constraints, backends and numerical solvers within the tolerances; any number of steps.", "why_tests_cant": "Errors of the solver accumulate over arbitrarily long runs; a test cannot show that they do not.", "anchors": ["src/QPConstr.cpp:234-285 DamperJointLimitsConstr::update", "src/QPSolver.cpp solve"]}
{"id": "C86", "title": "The contact frame of body 2 follows body 1 along the free directions of a contact", "statement": "When a selection matrix leaves directions free and the second robot moves, every update of a contact constraint carries the contact frame of body 2 along. Along the free directions, and only along them, the frame must go where the frame of body 1 is; along the others it stays fixed in body 2; a further update at the same poses must do nothing; and the position constraint must compare body 1 with this same frame. When the second robot does not move the contact is left untouched.", "quantifier": "All robots, contacts, selection matrices, body poses, contact frames, and contact constraints in any state reached by calls.", "why_tests_cant": "Tests look at contacts with the default selection matrix, whose frames never move; the motion of the frames depends on continuous poses and on a composition of transforms that is right in special cases only.", "anchors": ["src/QPContactConstr.cpp:82-102 ContactData::update", "src/QPContactConstr.h:155-163 ContactData constructor", "src/QPContactConstr.cpp:195-358 update"]}
{"id": "C87", "title": "Contact constraints with an inexact numerical solver: how fast the frames may drift", "statement": "With a numerical solver whose answers satisfy its equations up to a tolerance eps, the derivative of the relative velocity of the contact frames of each registered contact is within eps of the one the constraint promises, along each selected direction. For a fully constrained contact starting together and at rest, the relative velocity is at most eps t for acceleration constraints and eps dt for speed constraints, and the two frames turn and move apart by no more than the integral of that. Both rates are attained: acceleration constraints accumulate solver error, speed constraints do not.", "quantifier": "All robots, contacts, motions, tolerances eps, times, and all executions of the three contact constraints.", "why_tests_cant": "The drift is a statement about a differential equation with a disturbance bounded by the solver tolerance, for all times; tests run a few steps and compare up to a loose threshold.", "anchors": ["src/QPContactConstr.cpp:195-358 update", "src/QLDQPSolver.cpp:60-147", "src/LSSOLQPSolver.cpp:60-160"]}
{"id": "C88", "title": "Forces and torques with an inexact numerical solver", "statement": "After a successful solve with a numerical solver of tolerance eps, the contact weights reported are no less than -eps; the force each contact makes from them is within eps times its number of weights of the friction cone, on both bodies, so that it pulls by no more than that; and the torques that computeTorque makes from the reported accelerations and weights satisfy the equation of motion exactly, exceed the torque limits by at most eps and the rate limits by at most eps over the time step. Where a joint has no actuator the equation of motion balances up to eps.", "quantifier": "All robots, contacts, histories of calls, tolerances, numerical solvers and solutions.", "why_tests_cant": "Depends on every answer an inexact solver may give; tests use one solver and check forces and torques against thresholds that are chosen by hand.", "anchors": ["src/QPMotionConstr.cpp:38-190 PositiveLambda and MotionConstr", "src/QPContacts.cpp:25-330", "src/QPSolver.cpp:60-160 solve"]}
{"id": "C89", "title": "A task loses no more to the rest of the problem than the rest would lose to it, divided by its weight", "statement": "After a successful solve, exact or within delta of the optimum: for every task and every acceleration x0 that satisfies all constraints and mimic joints, the unweighted objective of the task exceeds its value at x0 by at most (what the other tasks and the small penalty of the solver lose at x0, plus delta) divided by the weight of the task. So raising a weight makes a task as good as any admissible point allows, tasks that can all be achieved are achieved up to the penalty and delta whatever their weights, and the acceleration of each row of a least-squares task is within sqrt(2 loss / (weight * dimWeight)) of its target.", "quantifier": "All robots, tasks, weights, constraints, histories of calls, backends and numerical solvers (exact or inexact), all admissible points.", "why_tests_cant": "Quantifies over every admissible acceleration and every set of competing tasks; tests fix a few tasks and look at the result.", "anchors": ["src/QPSolver.cpp:QPSolver::solve", "src/GenQPUtils.h:fillQC", "src/QLDQPSolver.cpp:updateMatrix", "src/QPTasks.cpp:SetPointTaskCommon::computeQC"]}
{"id": "C90", "title": "A set-point task that has to share ends up within a known distance of its target", "statement": "If at every time the solver succeeds (exactly or within delta of the optimum), whatever the other tasks and constraints are, and reaching the target acceleration of a SetPointTask of stiffness k and weight w would cost the others at most B, the error of each of its rows stays within rho / k of the critically damped response and finally within any margin of rho / k of zero, where rho = sqrt(2 (B + delta) / (w * dimWeight)).", "quantifier": "All motions, histories of calls on the task, competing tasks, constraints, tolerances and numerical solvers.", "why_tests_cant": "A statement about the whole future of the closed loop for all competing tasks; simulations show one of them for a finite time.", "anchors": ["src/QPTasks.cpp:SetPointTask", "src/QPSolver.cpp:QPSolver::solve", "src/GenQPUtils.h:fillQC"]}
{"id": "C91", "title": "Balls kept apart by the collision constraint can come closer than the security distance by a known amount, and do when they spin", "statement": "Two balls, one on a robot and the other on a robot or fixed, registered with addCollision (interaction distance di, security distance ds, damping c = r (1 - r dt) (di - ds)). Whenever all updates and solves succeed, with a numerical solver that satisfies the rows up to eps, and the start is allowed by the damper, the distance never falls below ds - (eps + dt mu) (di - ds) / c. Here mu bounds how much the acceleration of the distance the constraint works with, which treats the closest points as fixed in the bodies, exceeds the true one. For balls this excess is an explicit function of the angular velocities and of the motion of the normal. The full claim, that the distance never falls below ds, is false even with an exact solver: a ball spinning about its centre comes as close to contact as one likes.", "quantifier": "All robots, ball radii, motions in continuous time, histories of calls on the constraint, other tasks and constraints, backends and tolerances.", "why_tests_cant": "A statement about every future of the closed loop. The failure needs a fast rotation near an obstacle and shows up as a slow drift through the security distance, which a test with a few motions does not produce.", "anchors": ["src/QPConstr.cpp:CollisionConstr::update", "src/QPConstr.cpp:CollisionConstr::addCollision", "src/QPConstr.h:CollisionConstr"]}
{"id": "C92", "title": "With an inexact numerical solver the CoM planes and the speed bounds are still respected along the motion, up to an amount that is known and reached", "statement": "A numerical solver that satisfies the rows up to eps. (1) A fixed plane registered with CoMIncPlaneConstr (interaction distance di, security distance ds, damping c = r (1 - r dt) (di - ds) > 0): whenever all updates and solves succeed along the motion and the start is allowed by the damper, the centre of mass never comes closer to the plane than ds - eps (di - ds) / c. (2) A component of a body velocity bounded with BoundedSpeedConstr that starts within its bounds stays within them up to dt eps. Both amounts are attained in the limit: a robot starting at rest at the security distance drifts to exactly ds - eps (di - ds) / c.", "quantifier": "All robots, masses, planes, bounds, motions in continuous time, histories of calls on the constraints, other tasks and constraints, backends and tolerances.", "why_tests_cant": "A statement about every future of the closed loop and every error the numerical solver may make; a test runs one solver on a few motions.", "anchors": ["src/QPConstr.cpp:CoMIncPlaneConstr::update", "src/QPConstr.cpp:BoundedSpeedConstr::update", "src/QLDQPSolver.cpp:QLDQPSolver::solve", "src/LSSOLQPSolver.cpp:LSSOLQPSolver::solve"]}
{"id": "C93", "title": "The rows and bounds of the registered constraints reach the numerical solver without any rounding", "statement": "For robots without mimic joints, whatever the numbers are (floating point included): entry (i, j) of the active lines of a registered constraint is, unchanged, an entry of the matrix handed to the solver, at line i plus the number of active lines registered before it, and its right-hand sides likewise; for QLD a two-sided line appears twice, once with all signs changed, and nothing else is computed. The bounds of a variable are those of the last registered bound constraint that covers it, unchanged.", "quantifier": "All numbers of constraints, lines and variables, all entries, any type of numbers (no algebraic law is used), both solver formats.", "why_tests_cant": "Tests compare a few assembled problems up to a tolerance; here the equality is exact for every entry and every type of numbers.", "anchors": ["src/GenQPUtils.h:fillEq", "src/GenQPUtils.h:fillInEq", "src/GenQPUtils.h:fillGenInEq", "src/GenQPUtils.h:fillBound", "src/QLDQPSolver.cpp:QLDQPSolver::updateMatrix", "src/LSSOLQPSolver.cpp:LSSOLQPSolver::updateMatrix"]}
{"id": "C94", "title": "Rounding errors in the rows and bounds of the constraints only add to the tolerance of the solver", "statement": "If the entries of the rows, right-hand sides and bounds that the constraints hand over are within eta of the exact ones, the answer x of a solver of tolerance eps satisfies the exact rows up to eps + eta (1 + sum |x_j|) and the exact bounds up to eps + eta. A step on rounded constraints is also a step with the same result on the exact constraints with that larger tolerance, so the guarantees given for inexact solvers hold with it: with bounds computed up to eta, damped joint limits are never exceeded by more than (eps + eta) dt R / off; with rows computed up to eta and accelerations and forces of total magnitude at most B, the centre of mass never comes closer to a plane than ds - (eps + eta (1 + B)) (di - ds) / c.", "quantifier": "All robots without mimic joints, problems, errors bounded by eta, tolerances, backends, and all futures of the closed loops.", "why_tests_cant": "A statement about every pattern of rounding errors; a test sees the errors of the runs it makes.", "anchors": ["src/QLDQPSolver.cpp:QLDQPSolver::solve", "src/LSSOLQPSolver.cpp:LSSOLQPSolver::solve", "src/QPConstr.cpp:DamperJointLimitsConstr::update", "src/QPConstr.cpp:CoMIncPlaneConstr::update"]}
{"id": "C95", "title": "The motion hypotheses of the rate properties hold for every robot moved by RBDyn", "statement": "For every kinematic tree of fixed, revolute, prismatic, cylindrical, spherical and free joints and every differentiable motion of its joints: forward kinematics and velocity are defined on configurations of the right sizes and do not depend on what the configuration held; the Jacobian of a body is built on the path from the root to it; every body pose is rigid and moves with the body velocity; the normal acceleration the solver computes for a body is the acceleration of that body when the joint accelerations are zero, and in general what is left once the contribution of the joint accelerations is taken away. Hence the rates of the tasks (error, speed, normal acceleration) and the closed-loop results hold for all these robots; for a position task this is stated end to end: d(error)/dt = -speed, d(speed)/dt = J alphaD + normalAcc, and a set-point task whose accelerations are followed brings the point to its target.", "quantifier": "All trees, joint types in the list, static transforms, unit axes, configurations, velocities and motions, all histories of the solver data.", "why_tests_cant": "Unit tests compare finite differences at sampled configurations of one robot, up to a tolerance; the derivatives here are exact, for all robots and motions.", "anchors": ["src/QPSolverData.cpp:SolverData::computeNormalAccB", "src/Tasks.cpp:PositionTask::update"]}
{"id": "C96", "title": "Updating a task with or without the normal accelerations of the solver gives the same result", "statement": "PositionTask, OrientationTask, SurfaceOrientationTask, LinVelocityTask, CoMTask, MultiCoMTask and MomentumTask can be updated with the robot and its configuration alone, or with the normal accelerations the solver data computed for that robot and configuration. For a robot with degrees of freedom both calls leave the task in the same state: same error, speed, normal acceleration and Jacobian, whatever the solver and RBDyn held in their buffers before.", "quantifier": "All trees, bodies, configurations, contents of the buffers, histories of the solver data.", "why_tests_cant": "Tests use one of the two overloads per task, on a few configurations.", "anchors": ["src/Tasks.cpp:PositionTask::update", "src/Tasks.cpp:OrientationTask::update", "src/Tasks.cpp:SurfaceOrientationTask::update", "src/Tasks.cpp:CoMTask::update", "src/Tasks.cpp:MultiCoMTask::update", "src/Tasks.cpp:MomentumTask::update", "src/Tasks.cpp:LinVelocityTask::update", "src/QPSolverData.cpp:SolverData::computeNormalAccB"]}
{"id": "C97", "title": "The reported accelerations and contact forces obey the laws of Newton and Euler", "statement": "For a robot with an unactuated floating base: after a successful solve with its motion constraint, if the robot moves with the reported accelerations then the total momentum of the particles it is made of changes with the sum of the reported contact forces minus the weight, and their angular momentum about the centre of mass with the moments of the contact forces, at their points, about it. Without contacts the motion is that of a body in flight: over any time the angular momentum about the centre of mass does not change and the momentum changes by the weight times the time, whatever the tasks ask for.", "quantifier": "All robots, contacts (unilateral and bilateral, with the ground or other robots), tasks, other constraints, states, solver back ends.", "why_tests_cant": "The property is about every particle of every robot and every solution; tests look at the residual of the joint space equation of one robot.", "anchors": ["src/QPMotionConstr.cpp:MotionConstrCommon::computeMatrix", "src/QPMotionConstr.cpp:MotionConstrCommon::ContactData", "src/QPMotionConstr.cpp:MotionConstr::update"]}
{"id": "C98", "title": "The motion is one that the contacts can carry: friction cone and zero moment point", "statement": "With the constraint on the contact weights as well: the change of the momentum plus the weight lies in the friction cone when all generators of the contacts do (with common normal and friction); when the contact points lie in a plane and the generators do not point into it, and the robot presses on the plane, there is a zero moment point that is a convex combination of the contact points: the balance of a walking robot.", "quantifier": "All robots with an unactuated floating base, contacts, tasks, constraints and states.", "why_tests_cant": "Tests check forces of single contacts; the statement relates every motion the solver can ask for to the support polygon.", "anchors": ["src/QPMotionConstr.cpp:PositiveLambda::updateNrVars", "src/QPMotionConstr.cpp:MotionConstrCommon::computeMatrix", "src/QPContacts.cpp:FrictionCone::FrictionCone"]}
{"id": "C99", "title": "The energy of the robot changes with the power of the reported torques and contact forces", "statement": "After a successful solve with the motion constraint, the torques that computeTorque reports for the result and the reported contact forces account for the energy: if the robot moves with the reported accelerations, the kinetic energy of its particles plus their potential energy changes with the power of the reported torques plus that of the contact forces at the velocities of the contact points. In particular unactuated motions without slipping contacts conserve energy.", "quantifier": "All robots (floating or fixed base), contacts, tasks, constraints, states and joint velocities.", "why_tests_cant": "A balance of powers over all particles of arbitrary robots is not observable by finitely many numerical comparisons.", "anchors": ["src/QPMotionConstr.cpp:MotionConstrCommon::computeTorque", "src/QPMotionConstr.cpp:MotionConstrCommon::computeMatrix"]}
{"id": "C100", "title": "Copies of visual servoing tasks and image constraints are values of their own", "statement": "GazeTask, PositionBasedVisServoTask and ImageConstr own heap memory and define their own copy operations. Every program that declares, copies, assigns (also to itself), moves, uses and destroys such objects has the outcome it would have if every variable were a value of its own: a copy and an assigned object read as the original, later calls on either are not visible through the other, no object is used after its memory is freed, nothing is freed twice or leaked. The member functions do the same to an object whatever its intermediate matrices held before. Assigning to an object that was moved from should give it the value.", "quantifier": "All programs (sequences of operations on any number of variables) and all contents.", "why_tests_cant": "Sharing, dangling pointers and double frees show only on particular sequences of operations, and often not even then.", "anchors": ["src/Tasks.cpp:GazeTask::GazeTask", "src/Tasks.cpp:GazeTask::operator=", "src/Tasks.cpp:PositionBasedVisServoTask::operator=", "src/QPConstr.cpp:ImageConstr::ImageConstr", "src/QPConstr.cpp:ImageConstr::operator=", "src/Tasks.cpp:GazeTask::update"]}
{"id": "C101", "title": "Tasks and constraints may be destroyed once they are removed from the solver", "statement": "The solver keeps pointers to the tasks and constraints of the user. Once an object is removed (or the tasks are reset), no later call on the solver reads or writes its memory: the object may be destroyed and its memory reused, and every later call succeeds, fails and returns exactly as if nothing had happened to that memory, whatever is written there in between.", "quantifier": "All sequences of calls, all objects (which may share memory with one another), all contents of the freed memory, all numerical solvers.", "why_tests_cant": "A dangling pointer usually reads plausible old values; a test cannot tell that the result does not depend on freed memory.", "anchors": ["src/QPSolver.cpp:QPSolver::removeTask", "src/QPSolver.cpp:QPSolver::removeConstraint", "src/Tasks/QPSolver.h:ConstraintFunction::removeFromSolver", "src/QPSolver.cpp:QPSolver::preUpdate", "src/QPSolver.cpp:QPSolver::updateConstrSize"]}
{"id": "C102", "title": "Robots that share nothing are controlled as if each had a solver of its own", "statement": "When several robots are given to one solver and every task and constraint concerns either a given group of robots (with their contacts) or only the others, what a successful step gives to the group is an optimal solution of the problem the group would have in a solver of its own: it meets the constraints of the group and reaches the same objective, and it is the same vector if that problem has a positive definite Hessian. Conversely the solutions of separate groups put together are a solution of the whole. If the constraints of one group cannot be met, no step succeeds for any robot.", "quantifier": "All numbers of robots and contacts, all orders in which robots, tasks and constraints are given, all tasks and constraints that separate, all backends, with or without mimic joints.", "why_tests_cant": "A test runs a fixed pair of robots; that no index, weight or diagonal correction leaks from one robot into another must hold for every layout and every problem.", "anchors": ["src/QPSolver.cpp:QPSolver::solve", "src/QPSolver.cpp:QPSolver::updateNrVars", "src/GenQPUtils.h:fillQC", "src/GenQPUtils.h:fillBound", "src/QPTasks.cpp:SetPointTaskCommon::computeQC", "src/QPTasks.cpp:SetPointTaskCommon::updateNrVars"]}
{"id": "C103", "title": "A constraint or task of some robots looks at these robots only and means the same in every solver", "statement": "A constraint or task given for some robots restricts or rewards only the accelerations of these robots and the contact weights that act on them, never the variables of other robots or contacts, even those that lie between theirs. Joint limits, damped joint limits, torque limits (plain, with springs, polynomial), bounded speeds, planes of the centre of mass and the torque task of one robot accept the same motions in two solvers in which the robot has different numbers, other robots around it and other contacts elsewhere.", "quantifier": "All robots and robot numbers, all sets of other robots and contacts, all histories of the constraint or task before the step, all values of the decision variables.", "why_tests_cant": "A test places a robot at one or two positions among fixed others; an off-by-one block or a stale index only shows for particular layouts and histories.", "anchors": ["src/QPConstr.cpp:JointLimitsConstr::update", "src/QPConstr.cpp:DamperJointLimitsConstr::update", "src/QPConstr.cpp:CollisionConstr::update", "src/QPConstr.cpp:CoMIncPlaneConstr::update", "src/QPConstr.cpp:GripperTorqueConstr::update", "src/QPConstr.cpp:BoundedSpeedConstr::update", "src/QPConstr.cpp:ImageConstr::update", "src/QPMotionConstr.cpp:MotionConstr::update", "src/QPMotionConstr.cpp:MotionSpringConstr::update", "src/QPMotionConstr.cpp:MotionPolyConstr::update", "src/QPContactConstr.cpp:ContactAccConstr::update", "src/QPTasks.cpp:TorqueTask::update", "src/QPTasks.cpp:PostureTask::update", "src/QPTasks.cpp:MultiCoMTask::update", "src/QPTasks.cpp:MultiRobotTransformTask::update", "src/QPTasks.cpp:ContactTask::update", "src/QPTasks.cpp:GripperTorqueTask::update"]}
{"id": "C104", "title": "A high-level task reports results of its dimension, for its robot, without a memory of earlier updates", "statement": "A position, orientation, surface orientation, transform, surface transform, gaze, visual servoing, centre of mass, momentum, linear velocity, orientation tracking, relative distance or vector orientation task for a robot keeps, through every sequence of setters and updates, the number of its robot and the dimension of its class, and reports an error, speed and normal acceleration of that dimension and a Jacobian with that many rows and one column per dof of the robot; the numbers it reports are those the task inside it computed, row by row, angular rows before linear ones. An update looks at the structure, state and normal accelerations of that robot only. Except for the relative distance and orientation tracking tasks, what it reports depends on the construction, the setters and the state it is updated with, never on earlier updates or on the memory it was built in. Tasks on a body can always be updated when the state has entries for the joints up to the body (the gaze task: when the depth is not zero). Set-point, tracking, trajectory and PID tasks over any of them are defined through every program of calls on the two. The transform task between two robots keeps its two robots and the shapes of its two Jacobians and looks at these robots only.", "quantifier": "All robots, classes of task, constructor arguments, sequences of setters and updates with robots of the same number of dofs, states, and contents of uninitialised memory.", "why_tests_cant": "Tests update each kind of task on one robot along one trajectory; a result left over from an earlier update, a matrix of the wrong width for another robot, or a read of uninitialised memory shows only for particular histories.", "anchors": ["src/QPTasks.cpp:PositionTask::update", "src/QPTasks.cpp:OrientationTask::update", "src/QPTasks.cpp:SurfaceOrientationTask::update", "src/QPTasks.cpp:SurfaceTransformTask::update", "src/QPTasks.cpp:TransformTask::update", "src/QPTasks.cpp:GazeTask::update", "src/QPTasks.cpp:PositionBasedVisServoTask::update", "src/QPTasks.cpp:CoMTask::update", "src/QPTasks.cpp:MomentumTask::update", "src/QPTasks.cpp:LinVelocityTask::update", "src/QPTasks.cpp:OrientationTrackingTask::update", "src/QPTasks.cpp:RelativeDistTask::update", "src/QPTasks.cpp:VectorOrientationTask::update", "src/QPTasks.cpp:SetPointTask::update", "src/Tasks.cpp:MultiRobotTransformTask::update"]}
{"id": "C105", "title": "Every registered task and constraint knows the current layout whenever it is updated", "statement": "If tasks and constraints are added to a solver together with the robots, then after every sequence of calls (changes of robots and contacts, additions, removals, changes of the numerical solver, control steps) each registered object has been told the layout the solver currently uses, and no control step updates an object that has not, unless there are no variables. Calling nrVars restores this whatever happened before. Adding a registered object again does not touch any object, and before the first layout adding an object does not touch any object. With the overloads without the robots the object keeps the layout it had before.", "quantifier": "All sequences of calls on the solver, all kinds of tasks and constraints, whatever they keep of the layout, all robots and contacts.", "why_tests_cant": "An object left with a stale layout is only wrong for certain orders of additions and layout changes; a test exercises a few orders with a few objects.", "anchors": ["src/QPSolver.cpp:QPSolver::addTask", "src/QPSolver.cpp:QPSolver::addConstraint", "src/QPSolver.cpp:QPSolver::nrVars", "src/QPSolver.cpp:QPSolver::updateTasksNrVars", "src/QPSolver.cpp:QPSolver::updateConstrsNrVars", "src/QPSolver.cpp:QPSolver::preUpdate", "src/Tasks/QPSolver.h:ConstraintFunction::addToSolver"]}
{"id": "C106", "title": "An exception thrown by a task or constraint leaves the solver usable", "statement": "Exceptions come out of the solver only from methods of its tasks and constraints, or from asking for a numerical solver that does not exist. If a control step throws, the configurations, the registered objects, the layout and the last result are as before, and the next control step is the one the solver would have made without the failed attempt. If nrVars throws, a later nrVars that returns brings the solver where it would have been without the failed call. If an addition throws, removing the object undoes it.", "quantifier": "All solvers, objects, robots, configurations and contacts; every point at which an object may throw and whatever state the object is left in.", "why_tests_cant": "The objects rarely throw, and what is left depends on which object throws and on the state before the call; tests check that calls throw, not what they leave behind.", "anchors": ["src/QPSolver.cpp:QPSolver::nrVars", "src/QPSolver.cpp:QPSolver::solveNoMbcUpdate", "src/QPSolver.cpp:QPSolver::preUpdate", "src/QPSolver.cpp:QPSolver::postUpdate", "src/QPSolver.cpp:QPSolver::addTask", "src/QPSolver.cpp:QPSolver::addConstraint", "src/QPSolver.cpp:QPSolver::solver", "src/Tasks/QPSolver.h:ConstraintFunction::addToSolver", "src/Tasks/QPSolver.h:ConstraintFunction::removeFromSolver"]}
{"id": "C107", "title": "A Python call reaches the C++ overload that its arguments name", "statement": "For every overloaded constructor or method of the qp module, a Python call whose arguments stand one by one for the arguments of a C++ overload makes the call of that overload, with every argument in its place and the default arguments of the header; any other call raises a Python exception and makes no C++ call.", "quantifier": "All lists of Python arguments (integers, floats, strings, bytes, lists, objects of any class of the binding) without None; all overloads of FrictionCone, ContactId, UnilateralContact, BilateralContact, force, OrientationTask, SurfaceOrientationTask, GazeTask, addPoint, updatePoint, addConstraint, addTask, addToSolver, and the tasks that hold a high-level task.", "why_tests_cant": "The choice depends on the number and classes of up to eleven arguments tested in order; the test suite calls each constructor in one way, and a test that shadows another one is only seen with the arguments of the shadowed overload.", "anchors": ["binding/python/tasks/qp/qp.pyx:check_args", "binding/python/tasks/qp/qp.pyx:UnilateralContact", "binding/python/tasks/qp/qp.pyx:BilateralContact", "binding/python/tasks/qp/qp.pyx:GazeTask", "binding/python/tasks/qp/qp.pyx:SetPointTask", "binding/python/tasks/qp/qp.pyx:MultiCoMTask", "binding/python/tasks/qp/qp.pyx:addToSolver", "src/Tasks/QPContacts.h:BilateralContact", "src/Tasks/QPTasks.h:GazeTask"]}
{"id": "C108", "title": "Setting a target is building the task with it", "statement": "Calling a setter of a high-level task (position, orientation, transform, surface frame, gaze, visual servoing, centre of mass, momentum, velocity, tracked point, relative distance points, vector orientation) right after its construction leaves the task as the constructor called with the new value would. A task that has been retargeted any number of times between any number of updates therefore reports, after the next update, the error, speed, normal acceleration and Jacobian of a task just constructed with the last values.", "quantifier": "All robots, constructor arguments, setters and values; all histories of setters and updates of a task without a memory of its own; all later states of the robot; all contents of uninitialised memory.", "why_tests_cant": "A test compares one setter with one construction at one configuration; which member a setter forgets shows only for the setter, value and configuration where that member matters.", "anchors": ["src/Tasks.cpp:PositionTask::bodyPoint", "src/Tasks.cpp:OrientationTask::orientation", "src/Tasks.cpp:TransformTaskCommon::target", "src/Tasks.cpp:GazeTask::error", "src/Tasks.cpp:PositionBasedVisServoTask::error", "src/Tasks.cpp:CoMTask::com", "src/Tasks.cpp:MomentumTask::momentum", "src/Tasks.cpp:LinVelocityTask::velocity", "src/Tasks.cpp:OrientationTrackingTask::trackedPoint", "src/Tasks.cpp:RelativeDistTask::vector", "src/Tasks.cpp:RelativeDistTask::robotPoint", "src/Tasks.cpp:VectorOrientationTask::bodyVector", "src/Tasks/QPTasks.h"]}
{"id": "C109", "title": "What a Python program has to keep for the solver", "statement": "From Python, a C++ object exists as long as some variable refers to its wrapper (for ever, for ImageConstr). Building a task on a high-level task, adding a task or constraint to the solver, or adding a collision between two shapes keeps nothing alive. A call of the solver is therefore defined exactly when the program itself still refers to every registered task and constraint, to every high-level task and joint selector these were built on, and to every shape of their collisions. No object is deleted twice, and a program that never drops a reference is defined except where it removes a constraint that is not registered.", "quantifier": "All Python programs made of constructions, assignments, deletions of variables, registrations, removals, collisions, method calls and solves, in any order and number.", "why_tests_cant": "The tests keep every object in a variable until the end, so no test ever drops one; what is freed when depends on the program, and a use after free often seems to work.", "anchors": ["binding/python/tasks/qp/qp.pyx:SetPointTask", "binding/python/tasks/qp/qp.pyx:JointsSelector", "binding/python/tasks/qp/qp.pyx:CollisionConstr", "binding/python/tasks/qp/qp.pyx:ImageConstr", "binding/python/tasks/qp/qp.pyx:QPSolver", "binding/python/tasks/qp/qp.pxd", "src/Tasks/QPTasks.h", "src/QPConstr.cpp", "src/QPSolver.cpp"]}
{"id": "C110", "title": "A getter returns the last value set", "statement": "After any history of setters and updates, each getter of a task (position, body point, orientation, target frame, control frame, centre of mass, momentum, velocity, tracked point, axes) returns the last value given to its own setter, or the value given to the constructor; no other setter and no update of the task changes it. In particular reading a value and setting it back is without effect on every getter.", "quantifier": "All robots, constructor arguments, histories of setters and updates with any values and robot states, and all getters of all single-robot tasks; the frames of the two-robot task.", "why_tests_cant": "A test reads a value right after setting it; a member shared by two setters or overwritten by an update shows only for other orders and values.", "anchors": ["src/Tasks.cpp:PositionTask::bodyPoint", "src/Tasks.cpp:TransformTaskCommon::target", "src/Tasks.cpp:TransformTask::E_0_c", "src/Tasks.cpp:CoMTask::com", "src/Tasks.cpp:MomentumTask::momentum", "src/Tasks.cpp:LinVelocityTask::velocity", "src/Tasks.cpp:OrientationTrackingTask::bodyPoint", "src/Tasks.cpp:VectorOrientationTask::target", "src/Tasks.cpp:MultiRobotTransformTask::X_r1b_r1s", "src/Tasks/QPTasks.h"]}
{"id": "C111", "title": "Bounds written from Python are the bounds the constraints use", "statement": "After any writes to the lower and upper attributes of a Python bound (position, velocity, torque, torque rate, polynomial torque), each attribute reads the last value written to it, or the constructor's, and these are the lower and upper bounds of the C++ object the constraint is built from.", "quantifier": "All classes of bounds, initial values and sequences of attribute writes.", "why_tests_cant": "The tests pass both bounds to the constructor and never use the attributes; a wrong attribute shows only when both bounds are written with different values.", "anchors": ["binding/python/tasks/tasks.pyx:PolyTorqueBound", "binding/python/tasks/tasks.pyx:TorqueBound", "binding/python/tasks/tasks.pyx:QBound", "src/Tasks/Bounds.h", "src/QPMotionConstr.cpp:MotionPolyConstr"]}
{"id": "C112", "title": "An error of the library reaches a Python program as an exception", "statement": "When the C++ library rejects an argument, a Python program gets a Python exception and goes on: force and nrLambda of a contact raise ValueError for a lambda of the wrong size and for an index that is not one of the points (negative indices do not count from the end), or OverflowError for an index that is no C int, and otherwise return what the C++ functions return; a CoM task with a weight vector of the wrong size raises ValueError; a value that is no name raises TypeError, and a name that is not ASCII ValueError, when choosing the numerical solver, and an unknown solver name raises and leaves the solver as it was.", "quantifier": "All contacts, lambdas, indices, cones and points; all robots and weights; all Python values passed as the name of a solver.", "why_tests_cant": "The tests never pass a wrong argument from Python; whether an exception can cross the binding is decided per declared function, and a missing declaration ends the process only when that function throws.", "anchors": ["binding/python/tasks/qp/c_qp.pxd", "binding/python/tasks/c_tasks.pxd", "binding/python/tasks/qp/qp.pyx:UnilateralContact.force", "binding/python/tasks/qp/qp.pyx:BilateralContact.nrLambda", "binding/python/tasks/qp/qp.pyx:QPSolver.solver", "src/QPContacts.cpp:UnilateralContact::sForce", "src/GenQPSolver.cpp:createQPSolver"]}
{"id": "C113", "title": "A task or constraint built in Python is the C++ object its arguments describe, or an exception is raised", "statement": "The constructors of the tasks and constraints from Python (with the tasks used without a solver, the gains and springs of a joint) and the methods that add a collision, a plane, a gripper, a bounded speed or set the limits of an image take the arguments of the C++ function, in its order and with its default values; they make that C++ object, every argument in its place, and any other arguments raise an exception, so that every Python object has a C++ object behind it.", "quantifier": "All argument lists without None, of every length, for 42 constructors and methods.", "why_tests_cant": "The Python tests build each class with one set of arguments, if at all; a swapped, missing or extra argument is seen only by a program that passes it.", "anchors": ["binding/python/tasks/qp/qp.pyx:PositionTask", "binding/python/tasks/qp/qp.pyx:MotionConstr", "binding/python/tasks/qp/qp.pyx:MotionSpringConstr", "binding/python/tasks/qp/qp.pyx:CollisionConstr", "binding/python/tasks/qp/qp.pyx:JointLimitsConstr", "binding/python/tasks/qp/qp.pyx:JointsSelector", "binding/python/tasks/tasks.pyx:GazeTask", "src/Tasks/QPTasks.h", "src/Tasks/QPConstr.h", "src/Tasks/Tasks.h"]}
{"id": "C114", "title": "What a Python program reads from a contact or from the data of a solver is a copy, and so is what it gives them", "statement": "The value of an attribute read from a contact in Python stays what it was when it was read: it does not change when the contact is changed, changing it does not change the contact, and it can be used when the contact is gone. A contact keeps the values it was made from or assigned, the solver keeps the contacts as they were at the last nrVars, and the object returned by data() keeps the data as they were, whatever the program does to its own objects.", "quantifier": "All programs made of: making values and contacts, reading and assigning attributes, changing objects in place, naming, renaming and deleting variables, nrVars, calls of the solver, data() and its methods.", "why_tests_cant": "Whether two objects share memory shows only after one of them is changed or deleted; the tests read an attribute and look at it at once.", "anchors": ["binding/python/tasks/qp/qp.pyx:UnilateralContact", "binding/python/tasks/qp/qp.pyx:BilateralContact", "binding/python/tasks/qp/qp.pyx:SolverData", "binding/python/tasks/qp/qp.pyx:SolverDataFromC", "binding/python/tasks/qp/qp.pyx:QPSolver", "binding/python/tasks/qp/qp.pxd"]}
{"id": "C115", "title": "A Python accessor reads and writes what the C++ getter and setter of its name do", "statement": "Called without argument, or with None, an accessor of a task returns the value of the C++ getter and changes nothing; called with an object of the class of the setter it does what the setter does and returns None; any other call raises an exception and changes nothing. So after any program, calls that raise included, an accessor returns the last value of the right class it was given, or the value of the constructor, in both modules.", "quantifier": "All states of the task, all lists of arguments given by position, all programs of accessor calls and updates on one high-level task of either module; the values set on SetPointTask, PIDTask and TargetObjectiveTask; SolverData.alphaDBegin and lambdaBegin; torque of the motion constraints.", "why_tests_cant": "The tests call an accessor once with an argument of the right class; None, wrong classes, the forms that are never called and calls after an exception are not run.", "anchors": ["binding/python/tasks/tasks.pyx:PositionTask", "binding/python/tasks/tasks.pyx:GazeTask", "binding/python/tasks/qp/qp.pyx:OrientationTask", "binding/python/tasks/qp/qp.pyx:GazeTask", "binding/python/tasks/qp/qp.pyx:PIDTask", "binding/python/tasks/qp/qp.pyx:TargetObjectiveTask", "binding/python/tasks/qp/qp.pyx:SolverData", "binding/python/tasks/qp/qp.pyx:MotionConstr"]}
{"id": "C116", "title": "Contact identifiers in Python compare, sort and are found as the constraints find them", "statement": "Two ContactId objects are == exactly when their five attributes are equal, != otherwise, and < exactly when the first attribute that differs (r1Index, r1BodyName, r2Index, r2BodyName, ambiguityId) is smaller: a strict total order. So `in`, index, min and sorted work on lists of identifiers, the sorted order does not depend on the algorithm, and a contact constraint finds an identifier exactly when `in` finds it among those given to it. An identifier is built from C integers and names, str or bytes, an attribute reads as what was last assigned, and anything else raises an exception.", "quantifier": "All argument lists of the constructor, all assignments, all pairs of operands of which one is a ContactId, all six operators, all lists of identifiers.", "why_tests_cant": "No test compares, sorts or searches identifiers in Python; operators that raise, operands of other classes, None, and names that are str are not exercised, and an order property ranges over all triples.", "anchors": ["binding/python/tasks/qp/qp.pyx:ContactId", "binding/python/tasks/qp/qp.pyx:__richcmp__", "binding/python/tasks/qp/qp.pyx:ContactConstrCommon", "src/QPContacts.cpp:ContactId::operator<", "src/QPContactConstr.cpp:ContactConstrCommon::addVirtualContact"]}
{"id": "C117", "title": "A posture task driven from Python minimises what the calls of the program ask for, and lists of joint names reach C++ unchanged", "statement": "Every call of weight, stiffness, damping, gains, posture, jointsStiffness or jointsGains on a Python PostureTask either reads the C++ value, or does exactly the C++ call with the converted arguments (any sequences of numbers for the posture, a list of gain objects or a single one for the joints), or raises an exception and changes nothing. So after any program the task has the objective of the C++ calls that were asked for, times the last weight given, and the reading calls return the last posture, stiffness and damping. JointsSelector hands the names to C++ in order, and leaves the list of the caller usable for the next call.", "quantifier": "All programs of calls (with arguments of any class and number), updates of the variables and updates of the task; all robots with joints of 0, 1 or 3 dofs for the objective; all lists and tuples of names.", "why_tests_cant": "The tests build a posture task once and read it; sequences of calls with failures in between, mixed sequence types, and lists of names that are used again range over unbounded inputs.", "anchors": ["binding/python/tasks/qp/qp.pyx:PostureTask", "binding/python/tasks/qp/qp.pyx:JointStiffnessVector", "binding/python/tasks/qp/qp.pyx:JointGainsVector", "binding/python/tasks/qp/qp.pyx:JointsSelector", "src/QPTasks.cpp:PostureTask::jointsStiffness", "src/QPTasks.cpp:PostureTask::jointsGains"]}
{"id": "C118", "title": "The choice of the world frame does not matter to a task", "statement": "Take the same robot, in the same motion, described in another world frame (another origin and other axes), and give the targets of the tasks in that frame. Every single-robot high-level task and the transform task between two robots then behaves as before: an update is defined, throws or is undefined behaviour in one frame exactly when it is in the other; what it reports is the same when it is given in the frame of a body, a surface or a camera, and is the same vector in the new coordinates when it is given in the world. The set-point, trajectory, tracking and PID tasks ask the same of the joint accelerations when their weights (and the gains per coordinate) do not prefer an axis of the world and the references are given in the new frame. Weights that prefer an axis make the objective depend on the frame.", "quantifier": "All rigid changes of frame, robots, states, targets, parameters and histories of updates; all tasks (orientation tracking under the hypothesis that its error does not depend on the frame, which C119 shows to fail); all functions rotationVelocity; all joint accelerations.", "why_tests_cant": "The tests compute with one world frame; agreement over every change of frame, robot and state cannot be sampled.", "anchors": ["src/Tasks.cpp:PositionTask::update", "src/Tasks.cpp:OrientationTask::update", "src/Tasks.cpp:TransformTask::update", "src/Tasks.cpp:SurfaceTransformTask::update", "src/Tasks.cpp:CoMTask::update", "src/Tasks.cpp:MomentumTask::update", "src/Tasks.cpp:RelativeDistTask::update", "src/Tasks.cpp:VectorOrientationTask::update", "src/Tasks.cpp:MultiRobotTransformTask::update", "src/QPTasks.cpp:SetPointTask::update", "src/QPTasks.cpp:TrajectoryTask::update"]}
{"id": "C119", "title": "The error of the orientation tracking task is the turn that points the body axis at the tracked point", "statement": "Unless the body axis points away from the tracked point, there is exactly one turn of less than half a turn, around a vector orthogonal to the axis, that makes the axis point at the point. The error that OrientationTrackingTask reports is the vector of this turn in world coordinates: it has the angle as length, vanishes exactly when the axis points at the point, and turning with it brings the axis closer to the direction of the point.", "quantifier": "All poses of the body, body points, body axes that are not zero and tracked points other than the body point, with directions that are not opposite up to the precision of Eigen.", "why_tests_cant": "The task has no test; the error is right for bodies that keep the orientation of the world or turn in a plane, and wrong for others, so it takes the right samples to see it.", "anchors": ["src/Tasks.cpp:OrientationTrackingTask::update", "src/Tasks/Tasks.h:OrientationTrackingTask"]}
{"id": "C120", "title": "The choice of the world frame does not matter to the contact, collision and plane constraints", "statement": "Take the same robots, in the same motion, and the same objects around them, described in another world frame (another origin and other axes). Every update of a collision avoidance constraint, of a contact constraint (acceleration, speed or position) and, when its planes are given in that frame, of the constraint that keeps the CoM inside planes then gives the QP exactly the same rows, with the same distances, dampings and numbers of active rows; it is undefined behaviour in one frame exactly when it is in the other. The contact frames corrected along free directions are the same. The closest points and normals of the pairs are the same points and vectors in the new coordinates, and the description of a row names the same pair or plane. The same holds after any number of updates.", "quantifier": "All rigid changes of frame, robots, states, pairs, hulls whose closest points move along with the hulls, planes, contacts, free directions, previous contents of the buffers and runs.", "why_tests_cant": "The tests compute with one world frame; agreement over every change of frame, robot, state and run cannot be sampled.", "anchors": ["src/QPConstr.cpp:CollisionConstr::update", "src/QPConstr.cpp:CollisionConstr::computeDamping", "src/QPConstr.cpp:CollisionConstr::descInEq", "src/QPConstr.cpp:tosch", "src/QPConstr.cpp:CoMIncPlaneConstr::update", "src/QPConstr.cpp:CoMIncPlaneConstr::descInEq", "src/QPContactConstr.cpp:ContactAccConstr::update", "src/QPContactConstr.cpp:ContactSpeedConstr::update", "src/QPContactConstr.cpp:ContactPosConstr::update"]}
{"id": "C121", "title": "The order in which tasks and constraints are added does not matter, except for bounds on the same variable", "statement": "Give two solvers the same tasks and constraints in different orders, with other tasks and constraints added and removed between. If the objects do not interfere with each other in their updates (in particular if each has its own data), a control step from the same state updates all of them to the same state, and the two QPs need the same sizes, accept the same vectors and have the same objective, including the regularisation of the diagonal. After two successful steps the result of each satisfies the constraints of the other, both reach the same objective value, and the results are equal if no direction is left free by the tasks. The exception are two bound constraints on the same variable: the one added last replaces the other, so the accepted values depend on the order.", "quantifier": "All histories of calls on the two solvers that add a constraint while absent and remove it while present, all objects, robots, contacts, states, backends and numerical solvers that meet their contract.", "why_tests_cant": "A test adds its tasks and constraints in one order; the orders and the interleavings with removals cannot be enumerated.", "anchors": ["src/QPSolver.cpp:QPSolver::addTask", "src/QPSolver.cpp:QPSolver::addConstraint", "src/QPSolver.cpp:QPSolver::preUpdate", "src/QPSolver.cpp:QPSolver::updateConstrSize", "src/QPSolver.cpp:QPSolver::nrVars", "src/GenQPUtils.h:fillQC", "src/GenQPUtils.h:fillBound"]}
{"id": "C122", "title": "An additional constraint costs the tasks something only if the result touches it", "statement": "Compare successful control steps with the same tasks, one with additional constraints. The result with more constraints satisfies all the others too, and the value of the objective is never better. If the result without the additional constraints satisfies them, adding them does not change the value, and not the result if the tasks leave no direction free. If the additional constraints are inequalities and bounds that the result does not touch, and the objective is convex (weights not negative), then the result is the best without them as well: taking them away changes neither the value nor, if no direction is free, the result. So when the additional constraints make the value worse, the result touches at least one of them. All this is about the tasks together: a single task may gain from a constraint. A second bound constraint on a variable is not an additional constraint, as it replaces the first.", "quantifier": "All sets of tasks and constraints and additional constraints, robots, contacts, histories, backends and numerical solvers that meet their contract; bounds on different variables.", "why_tests_cant": "It compares two runs over all constraint sets and all vectors they accept.", "anchors": ["src/QPSolver.cpp:QPSolver::addConstraint", "src/QPSolver.cpp:QPSolver::removeConstraint", "src/QPSolver.cpp:QPSolver::solve", "src/GenQPUtils.h:fillQC", "src/GenQPUtils.h:fillInEq", "src/GenQPUtils.h:fillBound"]}
{"id": "C123", "title": "A task that asks for something else gets a change in that direction, and not more than it asked for", "statement": "Compare two successful control steps with the same constraints and tasks, except that one least-squares task (set-point, tracking, trajectory, PID) asks for other task accelerations. If the other tasks are convex and the weights not negative, the task accelerations obtained change in the direction in which the request changed (the weighted product of the two changes is at least the weighted square of the change obtained), and by no more than the request in the weighted norm. A task of one dimension that asks for more gets at least as much as before, and at most the difference more. For a set-point task of stiffness k, another target changes the task acceleration by at most k times the change of the error. The whole result changes, measured by the Hessian, by at most the weighted product of the two changes. This holds whatever the constraints are, also when they become active or inactive.", "quantifier": "All least-squares tasks and requests, all other convex tasks, constraints, robots, contacts, histories, backends and numerical solvers that meet their contract; bounds on different variables.", "why_tests_cant": "It compares two runs, over all pairs of requests and all constraint sets.", "anchors": ["src/QPTasks.cpp:SetPointTaskCommon::computeQC", "src/QPTasks.cpp:SetPointTask::update", "src/QPSolver.cpp:QPSolver::solve", "src/GenQPUtils.h:fillQC"]}
{"id": "C124", "title": "Only the ratios of the task weights matter", "statement": "Multiplying the weights of all tasks of a solver by the same positive factor does not change what a successful control step does: the tasks together reach the same value, and the result is the same if the tasks leave no direction free.", "quantifier": "All sets of tasks and constraints, factors, robots, contacts, histories, backends and numerical solvers that meet their contract; bounds on different variables.", "why_tests_cant": "It compares two runs over all tasks, constraints and factors; the tests use weights of ordinary size.", "anchors": ["src/Tasks/QPSolver.h:Task::weight", "src/GenQPUtils.h:fillQC", "src/QPSolver.cpp:QPSolver::solve"]}
{"id": "C125", "title": "The influence of a task fades with its weight", "statement": "A task of weight zero changes nothing: a successful control step with it has the value and, if the other tasks leave no direction free, the result of a step without it. As its weight goes to zero, what the other tasks lose because of it and how far the result moves go to zero.", "quantifier": "All sets of convex tasks and constraints, all added tasks whose loss is bounded below, robots, contacts, histories, backends and numerical solvers that meet their contract, and all sufficiently small weights; bounds on different variables.", "why_tests_cant": "It compares runs with and without the task for all tasks and a whole range of weights; the result is not continuous in the weight elsewhere, so tests at sample weights say nothing about the ones between.", "anchors": ["src/Tasks/QPSolver.h:Task::weight", "src/GenQPUtils.h:fillQC", "src/QPSolver.cpp:QPSolver::solve"]}
{"id": "C126", "title": "Inexact numerical solvers agree up to their tolerance", "statement": "Two successful control steps on the same problem, with numerical solvers that return a result within a tolerance of the optimum, have results that differ, measured by the Hessian of the objective, by at most four times the sum of the tolerances if the results respect the constraints; if they respect them only up to a tolerance, this holds after any correction of the results, with its cost added. So on every row of every task they agree up to the root of that amount divided by the weights.", "quantifier": "All problems (also with the tasks and constraints in another order, or with additional tasks of weight zero), robots, contacts, histories, backends and numerical solvers, and all tolerances; for the rows, convex tasks; bounds on different variables.", "why_tests_cant": "It compares all results that two solvers may return within their tolerances; a test sees the one result of one solver.", "anchors": ["src/QPSolver.cpp:QPSolver::solve", "src/QLDQPSolver.cpp:QLDQPSolver::solve", "src/LSSOLQPSolver.cpp:LSSOLQPSolver::solve", "src/GenQPUtils.h:fillQC"]}
{"id": "C127", "title": "Wider limits never make the tasks worse", "statement": "If a constraint of a problem is exchanged for one that accepts at least the same results, the objective after a successful control step (the weighted sum of the errors of the tasks, and the small penalty that the solver adds on variables without weight) is not larger than before, and the result moves, measured by the Hessian, by at most twice what is gained. With numerical solvers that have tolerances this holds up to them. Widening joint limits (position, acceleration, jerk), torque limits or the limits of damped joint limits is such an exchange.", "quantifier": "All tasks, other constraints, robots, states, histories of the constraints and backends; joint limits without a free base, torque limits without limits on the torque rate.", "why_tests_cant": "It compares the optimal results of two problems for all limits and all states; that it fails for damped joint limits shows only when the joint lies between the old and the new border of a zone.", "anchors": ["src/QPConstr.cpp:JointLimitsConstr::update", "src/QPConstr.cpp:DamperJointLimitsConstr::update", "src/QPMotionConstr.cpp:MotionConstr::update", "src/QPSolver.cpp:QPSolver::solve"]}
