import Verif.Proofs.Solver
import Verif.Props.Layout
import Verif.Proofs.Psd
import Verif.Props.NormalAcc

/-!
# C13, C14, C15, C55: the solver object

The statements quantify over every history of calls on the solver.
-/

set_option autoImplicit false
set_option linter.unusedSectionVars false

namespace Verif

open Finset

variable {K Ob W R : Type} [Field K] [LinearOrder K] [IsStrictOrderedRing K] [DecidableEq Ob]

namespace Spec

/-- The user calls `calls` in order, starting from `sw`; none of them crashes or throws. -/
def Run (ob : Objects K Ob W R) (hasLssol : Bool) (calls : List (Call K Ob W R))
    (sw sw' : Solver K Ob × W) : Prop :=
  forEach calls (Call.run ob hasLssol) sw = .ok sw'

/-- The robot has no mimic joint. -/
def NoMimic (mb : MultiBody K) : Prop := ∀ j ∈ mb.joints, j.mimic = none

/-- Calls that may follow `nrVars(mbs, ...)` without losing its effect: anything but another
`nrVars`; `solver(name)` only when no robot has a mimic joint. -/
def Keeps (mbs : List (MultiBody K)) : Call K Ob W R → Prop
  | .nrVars .. => False
  | .setSolver _ => ∀ mb ∈ mbs, NoMimic mb
  | _ => True

/-- Contacts as the library builds them: one cone per point. -/
def GoodContacts (bi : List (BiContact K)) : Prop :=
  ∀ c ∈ bi, c.r1Points.length ≤ c.r1Cones.length

/-- `mbc` stores one list per joint of `mb`, of the size of the joint. -/
def Shaped (mb : MultiBody K) (mbc : Mbc K R) : Prop :=
  mbc.alphaD.map List.length = mb.joints.map Joint.dof

/-- Entry `v` is `m` times entry `u` for each mimic joint of each robot, where `u` and `v` are the
variables of the leader and of the mimic joint. -/
def MimicJoints (mbs : List (MultiBody K)) (x : ℕ → K) : Prop :=
  ∀ (r : ℕ) (mb : MultiBody K), mbs[r]? = some mb → ∀ (i k : ℕ) (j j' : Joint K),
    mb.joints[i]? = some j → mb.joints[k]? = some j' → ∀ m, j.mimic = some (j'.name, m) →
      x (((mbs.take r).map MultiBody.nrDof).sum + dofBefore mb i)
        = m * x (((mbs.take r).map MultiBody.nrDof).sum + dofBefore mb k)

end Spec

open Spec

theorem allDeps_eq_nil {mbs : List (MultiBody K)} (h : ∀ mb ∈ mbs, NoMimic mb) (b : ℕ) :
    allDeps mbs b = [] := by
  induction mbs generalizing b with
  | nil => rfl
  | cons mb t ih =>
    have h0 : robotDeps mb b = [] := by
      unfold robotDeps
      rw [List.filterMap_eq_nil_iff]
      intro j hj
      simp [h mb (by simp) j hj]
    simp only [allDeps, h0, ite_self, List.nil_append]
    exact ih (fun m hm => h m (by simp [hm])) _

theorem ready_of_run {ob : Objects K Ob W R} {hasLssol : Bool} {pre post : List (Call K Ob W R)}
    {mbs : List (MultiBody K)} {uni : List (UniContact K)} {bi : List (BiContact K)}
    (hm : ∀ mb ∈ mbs, MimicOK mb) (hb : GoodContacts bi) (hp : ∀ c ∈ post, Keeps mbs c)
    {sw0 sw : Solver K Ob × W} (h : Run ob hasLssol (pre ++ .nrVars mbs uni bi :: post) sw0 sw) :
    Ready mbs uni bi sw.1 := by
  unfold Run at h
  rw [forEach_append, Out.bind_eq_ok] at h
  obtain ⟨sw1, _, h⟩ := h
  simp only [forEach, Out.bind_eq_ok] at h
  obtain ⟨⟨s2, w2⟩, h2, h⟩ := h
  simp only [Call.run] at h2
  refine forEach_inv (fun t => Ready mbs uni bi t.1) (nrVars_ready hm hb h2) ?_ h
  intro c hc t t' ht hstep
  refine ht.run ?_ hstep
  have := hp c hc
  cases c <;> first | exact this | trivial | exact allDeps_eq_nil this 0

/-! ## C13 -/

theorem mimicJoints_of {mbs : List (MultiBody K)} (hm : ∀ mb ∈ mbs, MimicOK mb) {x : ℕ → K}
    (h : Mimic (allDeps mbs 0) x) : MimicJoints mbs x := by
  intro r mb hr i k j j' hi hk m hj
  have := h _ (mem_allDeps hm hr hi hk hj 0)
  simpa using this

theorem mimicOK_leader {mb : MultiBody K} (h : MimicOK mb) {i k : ℕ} {j j' : Joint K} {m : K}
    (hi : mb.joints[i]? = some j) (hk : mb.joints[k]? = some j')
    (hj : j.mimic = some (j'.name, m)) : j.dof = 1 ∧ j'.dof = 1 := by
  obtain ⟨h1, j'', hmem, hn, _, hd⟩ := h.2 j (List.mem_of_getElem? hi) _ _ hj
  obtain ⟨q, hq⟩ := List.mem_iff_getElem?.mp hmem
  have e1 := findIdx_of_nodup h.1 hq
  have e2 := findIdx_of_nodup h.1 hk
  rw [hn] at e1
  rw [e1] at e2
  subst e2
  rw [hq] at hk
  cases hk
  exact ⟨h1, hd⟩

/-- **C13.**  After `nrVars(mbs, ...)` (whatever was called before it), and any further calls other
than `nrVars`, with no change of backend if there are mimic joints: whatever the numerical solver
answers, even a failure, every mimic joint's acceleration in `result()` is its multiplier times its
leader's; and on success the accelerations written to the robots satisfy the same relation.

Missing for the full property: changes of backend after `nrVars`, for which the claim is false
(`C13_setSolver_counterexample`). -/
theorem C13_mimic_respected_partial {ob : Objects K Ob W R} {hasLssol : Bool}
    {pre post : List (Call K Ob W R)} {mbs : List (MultiBody K)} {uni : List (UniContact K)}
    {bi : List (BiContact K)} (hm : ∀ mb ∈ mbs, MimicOK mb) (hb : GoodContacts bi)
    (hp : ∀ c ∈ post, Keeps mbs c) {sw0 : Solver K Ob × W} {s s' : Solver K Ob} {w w' : W}
    (h : Run ob hasLssol (pre ++ .nrVars mbs uni bi :: post) sw0 (s, w)) {eng : Engines K}
    {mbs' : List (MultiBody K)} {mbcs mbcs' : List (Mbc K R)} {ok : Bool}
    (hsol : s.solve ob eng mbs' mbcs w = .ok (ok, mbcs', s', w')) :
    MimicJoints mbs s'.backend.result.get ∧
    (ok = true → ∀ (r : ℕ) (mb : MultiBody K) (mbc mbc' : Mbc K R), mbs[r]? = some mb →
      mbcs[r]? = some mbc → Shaped mb mbc → mbcs'[r]? = some mbc' →
      ∀ (i k : ℕ) (j j' : Joint K), mb.joints[i]? = some j → mb.joints[k]? = some j' →
        ∀ m, j.mimic = some (j'.name, m) →
          ∃ a, mbc'.alphaD[k]? = some [a] ∧ mbc'.alphaD[i]? = some [m * a]) := by
  have hready := ready_of_run hm hb hp h
  obtain ⟨⟨msg, h1⟩, hupd⟩ := solve_parts hsol
  have hready' := hready.solveNoMbcUpdate h1
  obtain ⟨d, w1, b1, b2, _, _, _, hu, hs, rfl, _⟩ := solveNoMbcUpdate_parts h1
  obtain ⟨y, hy, _⟩ := Backend.result_full hs
  have hdep := (Backend.updateMatrix_sized hu hready.sized).1
  have hmj : MimicJoints mbs b2.result.get := by
    apply mimicJoints_of hm
    have := fullX_mimic hready.deps y
    intro d hd
    have h2 := this d hd
    rw [hy, hy, hdep]
    exact h2
  refine ⟨hmj, fun hok r mb mbc mbc' hmb hmbc hsh hmbc' i k j j' hi hk m hj => ?_⟩
  rw [hok, if_pos rfl] at hupd
  obtain ⟨_, hupd⟩ := updateMbcs_spec hupd
  obtain ⟨v, m1, g1, g2, g3, g4⟩ := hupd r mbc hmbc
  rw [hmbc'] at g2
  cases g2
  rw [zero_add] at g1
  obtain ⟨mb2, f1, f2⟩ := hready'.alphaDVecAt_eq hm hb g1
  rw [hmb] at f1
  cases f1
  obtain ⟨hd1, hd2⟩ := mimicOK_leader (hm mb (List.mem_of_getElem? hmb)) hi hk hj
  have entry : ∀ (q : ℕ) (jj : Joint K), mb.joints[q]? = some jj → jj.dof = 1 →
      mbc'.alphaD[q]? = some [b2.result.get
        (((mbs.take r).map MultiBody.nrDof).sum + dofBefore mb q)] := by
    intro q jj hq hdof
    have hlen : (mbc.alphaD.map List.length)[q]? = some 1 := by
      rw [hsh, List.getElem?_map, hq]
      simp [hdof]
    rw [List.getElem?_map, Option.map_eq_some_iff] at hlen
    obtain ⟨al, hal, hl1⟩ := hlen
    rw [vectorToParam_get g3 q al hal, hl1]
    have : ((mbc.alphaD.take q).map List.length).sum = dofBefore mb q := by
      unfold dofBefore
      rw [List.map_take, hsh, List.map_take]
    rw [this, f2]
    simp [List.range_succ]
  refine ⟨_, entry k j' hk hd2, ?_⟩
  rw [entry i j hi hd1, hmj r mb hmb i k j j' hi hk m hj]

/-! ## C14 -/

/-- Which flag the numerical solver returned, for the problem the backend gave it. -/
def Spec.EngineFlag (eng : Engines K) (b : Backend K) (flag : Bool) : Prop :=
  match b with
  | .qld s => ∃ p, s.problem = .ok p ∧ flag = (eng.qld p).1
  | .lssol s => ∃ p, s.problem = .ok p ∧ flag = (eng.lssol p).1

theorem engineFlag_of_solve {eng : Engines K} {b b' : Backend K} {ok : Bool}
    (h : b.solve eng = .ok (ok, b')) : EngineFlag eng b ok := by
  cases b with
  | qld s =>
    simp only [Backend.solve, Qld.solve, Out.bind_eq_ok] at h
    obtain ⟨⟨f, s'⟩, ⟨p, hpp, h1⟩, h2⟩ := h
    cases h2
    refine ⟨p, hpp, ?_⟩
    split at h1
    · simp only [Out.bind_eq_ok] at h1
      obtain ⟨X, _, h1⟩ := h1
      cases h1; rfl
    · cases h1; rfl
  | lssol s =>
    simp only [Backend.solve, Lssol.solve, Out.bind_eq_ok] at h
    obtain ⟨⟨f, s'⟩, ⟨p, hpp, h1⟩, h2⟩ := h
    cases h2
    refine ⟨p, hpp, ?_⟩
    split at h1
    · simp only [Out.bind_eq_ok] at h1
      obtain ⟨X, _, h1⟩ := h1
      cases h1; rfl
    · cases h1; rfl

/-- **C14.**  Every call of `solve` that returns: each registered constraint was updated once and
then each registered task once, in registration order; the problem was assembled from the objects
as they are after these updates; the flag is the numerical solver's; on failure the robots are
unchanged; on success the accelerations of robot `r` are the `r`-th slice of `result()` and nothing
else changed.  The registries are untouched. -/
theorem C14_solve {ob : Objects K Ob W R} {eng : Engines K} {mbs : List (MultiBody K)}
    {mbcs mbcs' : List (Mbc K R)} {s s' : Solver K Ob} {w w' : W} {flag : Bool}
    (h : s.solve ob eng mbs mbcs w = .ok (flag, mbcs', s', w')) :
    s'.regs = s.regs ∧ s'.tasks = s.tasks ∧
    (∃ w1, forEach s.regs.constr (fun c w => ob.cUpdate c mbs mbcs s'.data w) w = .ok w1 ∧
      forEach s.tasks (fun t w => ob.tUpdate t mbs mbcs s'.data w) w1 = .ok w') ∧
    (∃ b, s.backend.updateMatrix (s.input ob w') = .ok b ∧ EngineFlag eng b flag ∧
      b.solve eng = .ok (flag, s'.backend)) ∧
    (flag = false → mbcs' = mbcs) ∧
    (flag = true → mbcs'.length = mbcs.length ∧
      ∀ (r : ℕ) (m : Mbc K R), mbcs[r]? = some m → ∃ m' v, mbcs'[r]? = some m' ∧
        alphaDVecAt s'.data s'.backend.result r = .ok v ∧
        m'.alphaD.map List.length = m.alphaD.map List.length ∧
        (m.alphaD.flatten.length = v.size → m'.alphaD.flatten = v.toList) ∧
        m'.parentToSon = m.parentToSon ∧ m'.jointVelocity = m.jointVelocity ∧
        m'.bodyVelB = m.bodyVelB ∧ m'.rest = m.rest) := by
  obtain ⟨⟨msg, h1⟩, hupd⟩ := solve_parts h
  obtain ⟨d, w1, b1, b2, _, hc, ht, hu, hs, rfl, _⟩ := solveNoMbcUpdate_parts h1
  refine ⟨rfl, rfl, ⟨w1, hc, ht⟩, ⟨b1, hu, engineFlag_of_solve hs, hs⟩, ?_, ?_⟩
  · rintro rfl
    simpa using hupd.symm
  · rintro rfl
    rw [if_pos rfl] at hupd
    obtain ⟨hl, hupd⟩ := updateMbcs_spec hupd
    refine ⟨hl, fun r m hr => ?_⟩
    obtain ⟨v, m', g1, g2, g3, g4⟩ := hupd r m hr
    rw [zero_add] at g1
    obtain ⟨e1, e2, _⟩ := vectorToParam_spec g3
    refine ⟨m', v, g2, g1, e1, ?_, by rw [g4], by rw [g4], by rw [g4], by rw [g4]⟩
    intro hlen
    rw [e2, hlen]
    simp [Vec.toList]

/-- What a call on a registered object looks like to an observer. -/
inductive Spec.Event (Ob : Type) where
  | constr (o : Ob)
  | task (o : Ob)
  deriving DecidableEq

/-- Objects that write down each update. -/
def Spec.logging (ob : Objects K Ob Unit R) : Objects K Ob (List (Event Ob)) R where
  cNrVars := fun _ _ _ l => .ok l
  tNrVars := fun _ _ _ l => .ok l
  cUpdate := fun o _ _ _ l => .ok (l ++ [.constr o])
  tUpdate := fun o _ _ _ l => .ok (l ++ [.task o])
  eq := fun _ => ob.eq ()
  inEq := fun _ => ob.inEq ()
  gen := fun _ => ob.gen ()
  bound := fun _ => ob.bound ()
  task := fun _ => ob.task ()
  parts := ob.parts

theorem forEach_log {α β : Type} (f : α → β) (l : List α) (acc : List β) :
    forEach l (fun a l => Out.ok (l ++ [f a])) acc = .ok (acc ++ l.map f) := by
  induction l generalizing acc with
  | nil => simp [forEach]
  | cons a t ih => simp [forEach, ih]

/-- **C14** (order of the updates).  The updates made by one `solve`: every registered constraint
once, in registration order, then every registered task once, in registration order. -/
theorem C14_update_order {ob : Objects K Ob Unit R} {eng : Engines K} {mbs : List (MultiBody K)}
    {mbcs mbcs' : List (Mbc K R)} {s s' : Solver K Ob} {l l' : List (Event Ob)} {flag : Bool}
    (h : s.solve (logging ob) eng mbs mbcs l = .ok (flag, mbcs', s', l')) :
    l' = l ++ s.regs.constr.map Event.constr ++ s.tasks.map Event.task := by
  obtain ⟨_, _, ⟨w1, h1, h2⟩, _⟩ := C14_solve h
  simp only [logging] at h1 h2
  rw [forEach_log] at h1
  cases h1
  rw [forEach_log] at h2
  cases h2
  rfl

/-- **C14** (no crash).  On a configured solver, with up-to-date sizes, updates that return,
configurations for at most the declared robots and of the right shape, and a numerical solver
answering vectors of the right size, `solve` returns.  (LSSOL's diagnostics on failure are the
subject of C16.) -/
theorem C14_solve_returns {ob : Objects K Ob W R} {hasLssol : Bool}
    {pre post : List (Call K Ob W R)} {mbs : List (MultiBody K)} {uni : List (UniContact K)}
    {bi : List (BiContact K)} (hm : ∀ mb ∈ mbs, MimicOK mb) (hb : GoodContacts bi)
    (hp : ∀ c ∈ post, Keeps mbs c) {sw0 : Solver K Ob × W} {s : Solver K Ob} {w w1 w2 : W}
    (h : Run ob hasLssol (pre ++ .nrVars mbs uni bi :: post) sw0 (s, w)) {eng : Engines K}
    (hE : EngineSized eng) {mbs' : List (MultiBody K)} {mbcs : List (Mbc K R)} {d : SolverData K}
    (hd : computeNormalAccB mbs' mbcs s.data = .ok d)
    (hc : forEach s.regs.constr (fun c w => ob.cUpdate c mbs' mbcs d w) w = .ok w1)
    (ht : forEach s.tasks (fun t w => ob.tUpdate t mbs' mbcs d w) w1 = .ok w2)
    (hfit : InputFits s.data.nrVars s.maxEq s.maxInEq s.maxGen (s.input ob w2))
    (hshape : ∀ (r : ℕ) (m : Mbc K R), mbcs[r]? = some m → ∃ mb, mbs[r]? = some mb ∧ Shaped mb m)
    (hflag : s.backend.name = "QLD" ∨ ∀ p, (eng.lssol p).1 = true) :
    ∃ flag mbcs' s', s.solve ob eng mbs' mbcs w = .ok (flag, mbcs', s', w2) := by
  have hready := ready_of_run hm hb hp h
  obtain ⟨b1, ok, b2, e1, e2, _, hsz, _⟩ :=
    Backend.assemble_solve hE hready.sized hready.deps.ok.1 hfit
  let s2 : Solver K Ob := { s with
    data := d, backend := b2 }
  have hmsg : ∃ msg, s.solveNoMbcUpdate ob eng mbs' mbcs w = .ok (ok, msg, s2, w2) := by
    unfold Solver.solveNoMbcUpdate Solver.preUpdate
    simp only [hd, Out.ok_bind, hc, ht, e1, Out.pure_eq, e2]
    cases ok
    · have : ∃ sq, b2 = .qld sq := by
        cases hbk : s.backend with
        | qld sq =>
          rw [hbk] at e1
          simp only [Backend.updateMatrix, Out.bind_eq_ok] at e1
          obtain ⟨s1, _, e1⟩ := e1
          cases e1
          simp only [Backend.solve, Out.bind_eq_ok] at e2
          obtain ⟨⟨_, s3⟩, _, e2⟩ := e2
          cases e2
          exact ⟨s3, rfl⟩
        | lssol sl =>
          rw [hbk] at e1 hflag
          simp only [Backend.updateMatrix, Out.bind_eq_ok] at e1
          obtain ⟨s1, _, e1⟩ := e1
          cases e1
          have hf := engineFlag_of_solve e2
          obtain ⟨p, _, hf⟩ := hf
          rcases hflag with hq | hq
          · exact absurd hq (by simp [Backend.name])
          · rw [hq p] at hf; cases hf
      obtain ⟨sq, rfl⟩ := this
      exact ⟨[], rfl⟩
    · exact ⟨[], rfl⟩
  obtain ⟨msg, hmsg⟩ := hmsg
  have hready2 : Ready mbs uni bi s2 := hready.solveNoMbcUpdate hmsg
  have hn : s2.data.nrVars = s.data.nrVars := by
    have := congrArg SolverData.nrVars
      (show { d with normalAccB := s.data.normalAccB } = s.data from computeNormalAccB_layout hd)
    exact this
  have hu : ∃ l', s2.updateMbcs mbcs 0 = .ok l' := by
    apply updateMbcs_ok
    intro k m hk
    obtain ⟨mb, hmb, hsh⟩ := hshape k m hk
    rw [zero_add]
    refine ⟨_, (hready2.alphaDVecAt hm hb).1 mb hmb (by rw [hn]; exact hsz), ?_⟩
    unfold MultiBody.nrDof
    rw [← hsh, List.length_flatten]
  obtain ⟨l', hl'⟩ := hu
  unfold Solver.solve
  simp only [hmsg, Out.ok_bind]
  cases ok
  · exact ⟨_, _, _, rfl⟩
  · simp only [if_true, hl', Out.ok_bind, Out.pure_eq]
    exact ⟨_, _, _, rfl⟩

/-- **C14** (precondition).  `solve` never returns a success when given more configurations than
robots were declared: it reads past the end of the layout. -/
theorem C14_too_many_configurations {ob : Objects K Ob W R} {hasLssol : Bool}
    {pre post : List (Call K Ob W R)} {mbs : List (MultiBody K)} {uni : List (UniContact K)}
    {bi : List (BiContact K)} (hm : ∀ mb ∈ mbs, MimicOK mb) (hb : GoodContacts bi)
    (hp : ∀ c ∈ post, Keeps mbs c) {sw0 : Solver K Ob × W} {s : Solver K Ob} {w : W}
    (h : Run ob hasLssol (pre ++ .nrVars mbs uni bi :: post) sw0 (s, w)) {eng : Engines K}
    {mbs' : List (MultiBody K)} {mbcs : List (Mbc K R)} (hlen : mbs.length < mbcs.length) :
    ∀ mbcs' s' w', s.solve ob eng mbs' mbcs w ≠ .ok (true, mbcs', s', w') := by
  intro mbcs' s' w' hsol
  have hready := ready_of_run hm hb hp h
  obtain ⟨⟨msg, h1⟩, _⟩ := solve_parts hsol
  have hready' := hready.solveNoMbcUpdate h1
  obtain ⟨_, _, _, _, _, h2⟩ := C14_solve hsol
  obtain ⟨_, h2⟩ := h2 rfl
  obtain ⟨m', v, _, hv, _⟩ := h2 mbs.length _ (List.getElem?_eq_getElem hlen)
  rw [(hready'.alphaDVecAt hm hb).2 (List.getElem?_eq_none le_rfl)] at hv
  cases hv

/-! ## C15 -/

/-- Names of the backends compiled in. -/
def Spec.compiled (hasLssol : Bool) : List String := if hasLssol then ["QLD", "LSSOL"] else ["QLD"]

/-- **C15.**  For every string: `createQPSolver` and `solver(name)` accept it exactly when it is the
name of a compiled backend; then the backend in place has that name, is sized for the current
problem, and nothing else changed.  Otherwise `std::out_of_range` is thrown and the solver is as
before. -/
theorem C15_backend_selection (hasLssol : Bool) (name : String) (s : Solver K Ob) :
    (name ∈ compiled hasLssol →
      (∃ b : Backend K, createQPSolver hasLssol name = .ok b ∧ b.name = name) ∧
      ∃ s', s.callSolver hasLssol name = (.ok (), s') ∧ s'.backend.name = name ∧
        s'.backend.SizedFor s.data.nrVars s.maxEq s.maxInEq s.maxGen ∧
        s' = { s with backend := s'.backend }) ∧
    (name ∉ compiled hasLssol →
      createQPSolver (K := K) hasLssol name = .throws .outOfRange ∧
      s.callSolver hasLssol name = (.throws .outOfRange, s)) := by
  have good : ∀ b : Backend K, createQPSolver hasLssol name = .ok b → b.name = name →
      (∃ b : Backend K, createQPSolver hasLssol name = .ok b ∧ b.name = name) ∧
      ∃ s', s.callSolver hasLssol name = (.ok (), s') ∧ s'.backend.name = name ∧
        s'.backend.SizedFor s.data.nrVars s.maxEq s.maxInEq s.maxGen ∧
        s' = { s with backend := s'.backend } := by
    intro b hb hn
    refine ⟨⟨b, hb, hn⟩, { s with backend := b.updateSize s.data.nrVars s.maxEq s.maxInEq s.maxGen },
      ?_, ?_, (Backend.updateSize_sized _ _ _ _ b).1, rfl⟩
    · simp [Solver.callSolver, hb]
    · rw [← hn]
      cases b <;> rfl
  have bad : createQPSolver (K := K) hasLssol name = .throws .outOfRange →
      createQPSolver (K := K) hasLssol name = .throws .outOfRange ∧
      s.callSolver hasLssol name = (.throws .outOfRange, s) := by
    intro h
    exact ⟨h, by simp [Solver.callSolver, h]⟩
  cases hasLssol
  · constructor
    · intro h
      simp only [compiled, Bool.false_eq_true, if_false, List.mem_singleton] at h
      subst h
      exact good _ rfl rfl
    · intro h
      simp only [compiled, Bool.false_eq_true, if_false, List.mem_singleton] at h
      apply bad
      have h1 : (name == "QLD") = false := by simpa using h
      simp [createQPSolver, qpFactory, List.lookup_cons, h1]
  · constructor
    · intro h
      simp only [compiled, if_true, List.mem_cons, List.not_mem_nil, or_false] at h
      rcases h with rfl | rfl
      · exact good _ rfl rfl
      · exact good _ rfl rfl
    · intro h
      simp only [compiled, if_true, List.mem_cons, List.not_mem_nil, or_false, not_or] at h
      apply bad
      have h1 : (name == "QLD") = false := by simpa using h.1
      have h2 : (name == "LSSOL") = false := by simpa using h.2
      simp [createQPSolver, qpFactory, List.lookup_cons, h1, h2]

/-- **C15** (construction).  A new solver uses LSSOL if compiled in, else QLD. -/
theorem C15_default_backend (hasLssol : Bool) :
    ∃ s : Solver K Ob, Solver.init hasLssol = .ok s ∧
      s.backend.name = (if hasLssol then "LSSOL" else "QLD") := by
  cases hasLssol <;> exact ⟨_, rfl, rfl⟩

example : "QLD" ∈ compiled false ∧ "LSSOL" ∉ compiled false := by decide

/-! ## C55 -/

/-- Every registered equality, inequality, general inequality and bound holds at `x`. -/
def Spec.AllSatisfied (n : ℕ) (inp : QPInput K) (x : ℕ → K) : Prop :=
  SatLines n inp x ∧ ∀ c ∈ inp.bound, SatBound c x

theorem mimic_of_joints {mbs : List (MultiBody K)} (hm : ∀ mb ∈ mbs, MimicOK mb) {x : ℕ → K}
    (h : MimicJoints mbs x) : Mimic (allDeps mbs 0) x := by
  intro d hd
  obtain ⟨r, mb, i, k, j, j', m, e1, e2, e3, e4, rfl⟩ := allDeps_desc hm 0 d hd
  simpa using h r mb e1 i k j j' e2 e3 m e4

theorem satBound_congr {n : ℕ} {c : BoundC K} (hs : c.Sized n) {x x' : ℕ → K}
    (h : ∀ v < n, x v = x' v) : SatBound c x ↔ SatBound c x' := by
  unfold SatBound
  constructor
  · rintro ⟨h1, h2⟩
    exact ⟨fun i hi => by rw [← h _ (by have := hs.1; omega)]; exact h1 i hi,
      fun i hi => by rw [← h _ (by have := hs.2; omega)]; exact h2 i hi⟩
  · rintro ⟨h1, h2⟩
    exact ⟨fun i hi => by rw [h _ (by have := hs.1; omega)]; exact h1 i hi,
      fun i hi => by rw [h _ (by have := hs.2; omega)]; exact h2 i hi⟩

theorem objective_congr {n : ℕ} {inp : QPInput K} (hs : ∀ t ∈ inp.tasks, t.Sized n) {x x' : ℕ → K}
    (h : ∀ v < n, x v = x' v) : objective n inp x = objective n inp x' := by
  unfold objective
  congr 1
  · congr 1
    apply List.map_congr_left
    intro t ht
    obtain ⟨h1, h2, h3⟩ := hs t ht
    unfold TaskQC.obj
    congr 2
    · congr 1
      apply Finset.sum_congr rfl
      intro a ha
      apply Finset.sum_congr rfl
      intro b hb
      rw [Finset.mem_range] at ha hb
      rw [h _ (by omega), h _ (by omega)]
    · apply Finset.sum_congr rfl
      intro a ha
      rw [Finset.mem_range] at ha
      rw [h _ (by omega)]
  · congr 1
    apply Finset.sum_congr rfl
    intro i hi
    rw [Finset.mem_filter, Finset.mem_range] at hi
    rw [h _ hi.1]

theorem SameLayout.alphaDVecAt {d d' : SolverData K} (h : SameLayout d d') (x : Vec K) (r : ℕ) :
    Verif.alphaDVecAt d' x r = Verif.alphaDVecAt d x r := by
  have h : { d' with normalAccB := d.normalAccB } = d := h
  rw [← h]; rfl

theorem SameLayout.lambdaVec {d d' : SolverData K} (h : SameLayout d d') (x : Vec K) :
    Verif.lambdaVec d' x = Verif.lambdaVec d x := by
  have h : { d' with normalAccB := d.normalAccB } = d := h
  rw [← h]; rfl

theorem SameLayout.nrVars {d d' : SolverData K} (h : SameLayout d d') : d'.nrVars = d.nrVars := by
  have h : { d' with normalAccB := d.normalAccB } = d := h
  rw [← h]

/-- **C55.**  A solver configured by `nrVars(mbs, uni, bi)` (any calls before; afterwards any calls
but `nrVars`, and no change of backend if there are mimic joints); at the time of the assembly the
objects fit the sizes the solver has (C05), bound constraints cover disjoint variables and mimic
multipliers are not zero; the numerical solver meets its contract.  Then after a successful `solve`
with one configuration per robot:

* the accelerations written to the robots, followed by `lambdaVec()`, are the vector `result()`;
* this vector satisfies every registered equality, inequality, general inequality and bound;
* every mimic joint's acceleration is its multiplier times its leader's;
* no vector with these two properties has a smaller objective. -/
theorem C55_end_to_end {ob : Objects K Ob W R} {hasLssol : Bool}
    {pre post : List (Call K Ob W R)} {mbs : List (MultiBody K)} {uni : List (UniContact K)}
    {bi : List (BiContact K)} (hm : ∀ mb ∈ mbs, MimicOK mb) (hb : GoodContacts bi)
    (hnz : ∀ mb ∈ mbs, ∀ j ∈ mb.joints, ∀ l m, j.mimic = some (l, m) → m ≠ 0)
    (hp : ∀ c ∈ post, Keeps mbs c) {sw0 : Solver K Ob × W} {s s' : Solver K Ob} {w w' : W}
    (h : Run ob hasLssol (pre ++ .nrVars mbs uni bi :: post) sw0 (s, w)) {eng : Engines K}
    (hE : EngineSized eng) (hO : EngineOptimal eng)
    {mbcs mbcs' : List (Mbc K R)} (hlen : mbcs.length = mbs.length)
    (hshape : ∀ (r : ℕ) (mb : MultiBody K) (m : Mbc K R), mbs[r]? = some mb → mbcs[r]? = some m →
      Shaped mb m)
    (hsol : s.solve ob eng mbs mbcs w = .ok (true, mbcs', s', w'))
    (hfit : InputFits s.data.nrVars s.maxEq s.maxInEq s.maxGen (s.input ob w'))
    (hdis : (s.input ob w').bound.Pairwise fun c d => ∀ v, ¬ (Covers c v ∧ Covers d v)) :
    (∃ vl, lambdaVec s'.data s'.backend.result = .ok vl ∧
      (mbcs'.map fun m => m.alphaD.flatten).flatten ++ vl.toList = s'.backend.result.toList) ∧
    AllSatisfied s.data.nrVars (s.input ob w') s'.backend.result.get ∧
    MimicJoints mbs s'.backend.result.get ∧
    ∀ x, AllSatisfied s.data.nrVars (s.input ob w') x → MimicJoints mbs x →
      objective s.data.nrVars (s.input ob w') s'.backend.result.get
        ≤ objective s.data.nrVars (s.input ob w') x := by
  have hready := ready_of_run hm hb hp h
  obtain ⟨⟨msg, h1⟩, hupd⟩ := solve_parts hsol
  have hready' := hready.solveNoMbcUpdate h1
  obtain ⟨d, w1, c1, c2, hnd, _, _, hu, hs, rfl, _⟩ := solveNoMbcUpdate_parts h1
  have hin := hfit.1
  obtain ⟨b1, ok, b2, e1, e2, _, hsz, y, hy, hopt⟩ :=
    Backend.assemble_solve hE hready.sized hready.deps.ok.1 hfit
  rw [hu] at e1
  cases e1
  rw [hs] at e2
  cases e2
  obtain ⟨hl, hbd, hbest⟩ := hopt hO rfl
  have hn : d.nrVars = s.data.nrVars := (computeNormalAccB_layout hnd).nrVars
  have hgx : c2.result.get = fullX s.backend.dep y := funext hy
  have hzero : ∀ e ∈ allDeps mbs 0, e.2.2 = 0 → LastBounds (s.input ob w') e.2.1 0 := by
    intro e he h0
    obtain ⟨r, mb, i, k, j, j', m, f1, f2, f3, f4, rfl⟩ := allDeps_desc hm 0 e he
    exact absurd h0 (hnz mb (List.mem_of_getElem? f1) j (List.mem_of_getElem? f2) _ m f4)
  have hmj : MimicJoints mbs c2.result.get := by
    rw [hgx]
    exact mimicJoints_of hm (fullX_mimic hready.deps y)
  refine ⟨?_, ⟨?_, ?_⟩, hmj, ?_⟩
  · -- written accelerations
    obtain ⟨old, d0, hlay, hsame⟩ := hready'.lay
    have hgood : GoodInput mbs bi := ⟨fun mb h => MimicOK.named (hm mb h), hb⟩
    have hsame' : SameLayout d0 d := hsame
    obtain ⟨as, ls, va, vl, a1, a2, a3, a4, a5, a6, a7, a8, a9⟩ :=
      C02_accessors old mbs uni bi hgood d0 _ hlay c2.result (by rw [hsz, ← hn]; exact hsame'.nrVars)
    refine ⟨vl, by rw [← a8]; exact hsame'.lambdaVec _, ?_⟩
    rw [if_pos rfl] at hupd
    obtain ⟨g1, g2⟩ := updateMbcs_spec hupd
    have hal : (mbcs'.map fun m => m.alphaD.flatten) = as.map Vec.toList := by
      apply List.ext_getElem?
      intro r
      by_cases hr : r < mbs.length
      · obtain ⟨v, v1, v2, v3⟩ := a3 r hr
        have hrm : r < mbcs.length := by omega
        obtain ⟨v', m', q1, q2, q3, q4⟩ := g2 r _ (List.getElem?_eq_getElem hrm)
        rw [zero_add] at q1
        have q1' : alphaDVecAt d c2.result r = .ok v' := q1
        rw [hsame'.alphaDVecAt, v2] at q1'
        cases q1'
        obtain ⟨u1, u2, _⟩ := vectorToParam_spec q3
        have hsh := hshape r _ _ (List.getElem?_eq_getElem hr) (List.getElem?_eq_getElem hrm)
        have hsize : (mbcs[r]).alphaD.flatten.length = v.size := by
          rw [v3, List.length_flatten, hsh]; rfl
        simp only [List.getElem?_map, q2, v1, Option.map_some, Option.some.injEq]
        rw [u2, hsize]
        simp [Vec.toList]
      · rw [List.getElem?_eq_none (by simp; omega), List.getElem?_eq_none (by simp; omega)]
    rw [hal, a9, ← List.flatten_append, ← List.map_append]
    exact a5
  · rw [hgx]; exact hl
  · rw [hgx]
    exact (lastBounds_disjoint hin.2.2.2.2 hdis _).mp ((boundsAt_all hready.deps hzero y).mp hbd)
  · intro x hx hxm
    obtain ⟨z, hz⟩ := fullX_surj hready.deps (mimic_of_joints hm hxm)
    rw [hgx, ← objective_congr hin.1 hz]
    apply hbest
    · exact (satLines_congr hz).mpr hx.1
    · apply (boundsAt_all hready.deps hzero z).mpr
      apply (lastBounds_disjoint hin.2.2.2.2 hdis _).mpr
      intro c hc
      exact (satBound_congr (hin.2.2.2.2 c hc) hz).mpr (hx.2 c hc)

/-! ## The loss of the mimic relations, and a concrete instance of the hypotheses -/

/-- What C13 claims: the same as `C13_mimic_respected_partial`, with any change of backend after
`nrVars`. -/
def C13_full (K : Type) [Field K] [LinearOrder K] : Prop :=
  ∀ (Ob W R : Type) [DecidableEq Ob] (ob : Objects K Ob W R) (hasLssol : Bool)
    (pre post : List (Call K Ob W R)) (mbs : List (MultiBody K)) (uni : List (UniContact K))
    (bi : List (BiContact K)) (sw0 : Solver K Ob × W) (s s' : Solver K Ob) (w w' : W)
    (eng : Engines K) (mbcs mbcs' : List (Mbc K R)) (flag : Bool),
    (∀ mb ∈ mbs, MimicOK mb) → GoodContacts bi →
    (∀ c ∈ post, ∀ mbs uni bi, c ≠ .nrVars mbs uni bi) →
    Run ob hasLssol (pre ++ .nrVars mbs uni bi :: post) sw0 (s, w) →
    s.solve ob eng mbs mbcs w = .ok (flag, mbcs', s', w') →
    MimicJoints mbs s'.backend.result.get

/-- A gripper: the second finger moves twice as fast as the first one. -/
def exGrip : MultiBody ℚ := ⟨[⟨"a", 1, none⟩, ⟨"b", 1, some ("a", 2)⟩], 2, [-1, 0], [0, 1]⟩

/-- A configuration of it. -/
def exGripMbc : Mbc ℚ Unit := ⟨[[0], [0]], [PT.one, PT.one], [0, 0], [0, 0], ()⟩

/-- One task on the two accelerations (object 0) and one bound constraint (object 1). -/
def exObjects : Objects ℚ ℕ Unit Unit where
  cNrVars := fun _ _ _ w => .ok w
  tNrVars := fun _ _ _ w => .ok w
  cUpdate := fun _ _ _ _ w => .ok w
  tUpdate := fun _ _ _ _ w => .ok w
  eq := fun _ _ => ⟨0, 0, Mat.zero 0 2, Vec.const 0 0⟩
  inEq := fun _ _ => ⟨0, 0, Mat.zero 0 2, Vec.const 0 .posInf⟩
  gen := fun _ _ => ⟨0, 0, Mat.zero 0 2, Vec.const 0 .negInf, Vec.const 0 .posInf⟩
  bound := fun _ _ => ⟨0, Vec.ofList [.fin (-1), .fin (-1)], Vec.ofList [.fin 1, .fin 1]⟩
  task := fun _ _ => ⟨Mat.ofRows 2 [[1, 0], [0, 1]], Vec.ofList [-1, 0], (0, 0), 1⟩
  parts := fun _ => [.bound]

/-- A solver with the task and the constraint, before `nrVars`. -/
def exStart : Solver ℚ ℕ :=
  ⟨⟨[1], fun p => if p = .bound then [1] else []⟩, [0], SolverData.init, 0, 0, 0, .qld Qld.init⟩

/-- A numerical solver that always answers ones. -/
def exOnes (flag : Bool) : Engines ℚ :=
  ⟨fun p => (flag, ⟨p.C.size, fun _ => 1⟩), fun p => (flag, ⟨p.C.size, fun _ => 1⟩), Vec.const 0 0⟩

theorem exGrip_ok : ∀ mb ∈ [exGrip], MimicOK mb := by
  intro mb hmb
  simp only [List.mem_singleton] at hmb
  subst hmb
  refine ⟨by simp [exGrip], ?_⟩
  intro j hj l m h
  simp only [exGrip, List.mem_cons, List.not_mem_nil, or_false] at hj
  rcases hj with rfl | rfl
  · simp at h
  · simp at h
    obtain ⟨rfl, rfl⟩ := h
    exact ⟨rfl, ⟨"a", 1, none⟩, by simp [exGrip], rfl, rfl, rfl⟩

theorem exGrip_tree : Tree exGrip := by
  refine ⟨rfl, rfl, rfl, ?_⟩
  intro i p h
  match i with
  | 0 => simp [exGrip] at h; exact Or.inl h.symm
  | 1 => simp [exGrip] at h; exact Or.inr ⟨0, by omega, h.symm⟩
  | n + 2 => simp [exGrip] at h

/-- `nrVars` succeeds. -/
theorem exRun (pre : List (Call ℚ ℕ Unit Unit)) (hpre : pre = []) :
    ∃ s, Run exObjects false (pre ++ [.nrVars [exGrip] [] []]) (exStart, ()) (s, ()) ∧
    s.regs = exStart.regs ∧ s.tasks = exStart.tasks ∧ s.data.nrVars = 2 ∧ s.maxEq = 0 ∧
    s.maxInEq = 0 ∧ s.maxGen = 0 ∧ s.backend.name = "QLD" ∧
    AfterNrVars [exGrip] [] [] s.data := by
  subst hpre
  obtain ⟨d, deps, e, sp⟩ := layout_ok (SolverData.init : SolverData ℚ) [exGrip] [] []
    (fun mb h => MimicOK.named (exGrip_ok mb h)) (by simp)
  have hn : d.nrVars = 2 := by
    rw [sp.nrVars, sp.totalAlphaD, sp.totalLambda, sp.nrUniLambda, sp.nrBiLambda]; rfl
  have hwf : DepsWF d.nrVars (allDeps [exGrip] 0) :=
    allDeps_DepsWF exGrip_ok (by rw [hn]; simp [exGrip, MultiBody.nrDof])
  obtain ⟨ds, hds, _⟩ := setDependencies_ok hwf (by omega) DepSt.init
  have hdeps := sp.deps
  subst hdeps
  refine ⟨{ exStart with
    data := d, backend := (Backend.qld { Qld.init with dep := ds }).updateSize d.nrVars 0 0 0 },
    ?_, rfl, rfl, hn, rfl, rfl, rfl, rfl, .nrVars e⟩
  have hbk : exStart.backend.setDependencies d.nrVars (allDeps [exGrip] 0)
      = .ok (.qld { Qld.init with dep := ds }) := by
    simp only [exStart, Backend.setDependencies]
    have : setDependencies d.nrVars (allDeps [exGrip] 0) (Qld.init : Qld ℚ).dep = .ok ds := hds
    rw [this]
    rfl
  have hdat : exStart.data = SolverData.init := rfl
  have hst : exStart.updateTasksNrVars exObjects [exGrip] () = .ok () := rfl
  simp only [Run, List.nil_append, forEach, Call.run, Solver.nrVars, hdat, e, Out.ok_bind, hbk,
    Out.pure_eq]
  rfl

theorem exFits {s : Solver ℚ ℕ} (h1 : s.regs = exStart.regs) (h2 : s.tasks = exStart.tasks) :
    InputFits 2 0 0 0 (s.input exObjects ()) := by
  have : s.input exObjects () = ⟨[⟨Mat.ofRows 2 [[1, 0], [0, 1]], Vec.ofList [-1, 0], (0, 0), 1⟩],
      [], [], [], [⟨0, Vec.ofList [.fin (-1), .fin (-1)], Vec.ofList [.fin 1, .fin 1]⟩]⟩ := by
    unfold Solver.input
    rw [h1, h2]
    rfl
  rw [this]
  refine ⟨⟨?_, by simp, by simp, by simp, ?_⟩, le_rfl, le_rfl, le_rfl⟩
  · simp [TaskQC.Sized, Mat.ofRows, Vec.ofList]
  · simp [BoundC.Sized, Vec.ofList]

theorem exOnes_sized (flag : Bool) : EngineSized (exOnes flag) := ⟨fun _ => rfl, fun _ => rfl⟩

/-- The hypotheses of C13, C14 are met by a solver with a mimic joint, a task and a bound, and the
solve returns a success. -/
example : ∃ s mbcs' s', Run exObjects false ([] ++ .nrVars [exGrip] [] [] :: []) (exStart, ()) (s, ()) ∧
    s.solve exObjects (exOnes true) [exGrip] [exGripMbc] () = .ok (true, mbcs', s', ()) := by
  obtain ⟨s, hrun, h1, h2, h3, h4, h5, h6, h7, h8⟩ := exRun [] rfl
  obtain ⟨d, hd, _⟩ := C54_normal_recursion_partial (R := Unit)
    ⟨fun mb h => MimicOK.named (exGrip_ok mb h), by simp⟩
    (by intro mb hmb _; simp at hmb; subst hmb; exact exGrip_tree) h8 [exGripMbc] (by
      intro r mb hr _
      cases r with
      | zero => simp at hr; subst hr; exact ⟨exGripMbc, rfl, rfl, rfl, rfl⟩
      | succ r => simp at hr)
  have hc : ∀ d : SolverData ℚ, forEach s.regs.constr
      (fun c w => exObjects.cUpdate c [exGrip] [exGripMbc] d w) () = .ok () := by
    rw [h1]; intro d; rfl
  have ht : ∀ d : SolverData ℚ, forEach s.tasks
      (fun c w => exObjects.tUpdate c [exGrip] [exGripMbc] d w) () = .ok () := by
    rw [h2]; intro d; rfl
  obtain ⟨flag, mbcs', s', hs⟩ := C14_solve_returns exGrip_ok (by intro c hc; simp at hc) (by simp)
    hrun (exOnes_sized true) hd (hc d) (ht d) (by rw [h3, h4, h5, h6]; exact exFits h1 h2) (by
      intro r m hr
      cases r with
      | zero => simp at hr; subst hr; exact ⟨exGrip, rfl, rfl⟩
      | succ r => simp at hr) (Or.inl h7)
  have : flag = true := by
    obtain ⟨_, _, _, ⟨b, _, hf, _⟩, _⟩ := C14_solve hs
    cases b <;> obtain ⟨p, _, hf⟩ := hf <;> exact hf
  subst this
  exact ⟨s, mbcs', s', hrun, hs⟩

/-- **C13, disagreement.**  `solver(name)` after `nrVars` installs a backend that does not know the
mimic joints (QPSolver.cpp:273-277); the next solve returns accelerations violating them. -/
theorem C13_setSolver_counterexample : ¬ C13_full ℚ := by
  intro hfull
  obtain ⟨s, hrun, h1, h2, h3, h4, h5, h6, h7, h8⟩ := exRun [] rfl
  let b0 : Backend ℚ := (Backend.qld Qld.init).updateSize s.data.nrVars s.maxEq s.maxInEq s.maxGen
  let s1 : Solver ℚ ℕ := { s with backend := b0 }
  have hset : s.setSolver false "QLD" = .ok s1 := rfl
  have hrun1 : Run exObjects false ([] ++ .nrVars [exGrip] [] [] :: [.setSolver "QLD"])
      (exStart, ()) (s1, ()) := by
    have : ([] ++ .nrVars [exGrip] [] [] :: [.setSolver "QLD"] : List (Call ℚ ℕ Unit Unit))
        = ([] ++ [.nrVars [exGrip] [] []]) ++ [.setSolver "QLD"] := rfl
    rw [this]
    unfold Run
    rw [forEach_append, show forEach _ _ _ = _ from hrun]
    rfl
  obtain ⟨d, hd, _⟩ := C54_normal_recursion_partial (R := Unit)
    ⟨fun mb h => MimicOK.named (exGrip_ok mb h), by simp⟩
    (by intro mb hmb _; simp at hmb; subst hmb; exact exGrip_tree) h8 [exGripMbc] (by
      intro r mb hr _
      cases r with
      | zero => simp at hr; subst hr; exact ⟨exGripMbc, rfl, rfl, rfl, rfl⟩
      | succ r => simp at hr)
  have hz := Backend.updateSize_sized s.data.nrVars s.maxEq s.maxInEq s.maxGen
    (Backend.qld (Qld.init : Qld ℚ))
  obtain ⟨b1, ok, b2, e1, e2, _⟩ := Backend.assemble_solve (exOnes_sized false) hz.1
    (by rw [hz.2]; exact Or.inl rfl)
    (by rw [h3, h4, h5, h6]; exact exFits (s := s1) h1 h2 :
      InputFits s.data.nrVars s.maxEq s.maxInEq s.maxGen (s1.input exObjects ()))
  have hok : ok = false := by
    have hf := engineFlag_of_solve e2
    cases b1 <;> obtain ⟨p, _, hf⟩ := hf <;> exact hf
  subst hok
  have hb2 : ∃ q, b2 = .qld q := by
    have e1' : (Backend.qld ((Qld.init : Qld ℚ).updateSize s.data.nrVars s.maxEq s.maxInEq s.maxGen)).updateMatrix
      (s1.input exObjects ()) = .ok b1 := e1
    simp only [Backend.updateMatrix, Out.bind_eq_ok] at e1'
    obtain ⟨q, _, hq⟩ := e1'
    cases hq
    simp only [Backend.solve, Out.bind_eq_ok] at e2
    obtain ⟨⟨_, q2⟩, _, e2⟩ := e2
    cases e2
    exact ⟨q2, rfl⟩
  obtain ⟨q, rfl⟩ := hb2
  have hsol : s1.solve exObjects (exOnes false) [exGrip] [exGripMbc] ()
      = .ok (false, [exGripMbc], { s1 with
        data := d, backend := .qld q }, ()) := by
    have hd1 : computeNormalAccB [exGrip] [exGripMbc] s1.data = .ok d := hd
    have hc : forEach s1.regs.constr
        (fun c w => exObjects.cUpdate c [exGrip] [exGripMbc] d w) () = .ok () := by
      change forEach s.regs.constr _ _ = _
      rw [h1]; rfl
    have ht : forEach s1.tasks
        (fun c w => exObjects.tUpdate c [exGrip] [exGripMbc] d w) () = .ok () := by
      change forEach s.tasks _ _ = _
      rw [h2]; rfl
    have e1' : s1.backend.updateMatrix (s1.input exObjects ()) = .ok b1 := e1
    simp only [Solver.solve, Solver.solveNoMbcUpdate, Solver.preUpdate, hd1, Out.ok_bind, hc, ht,
      e1', Out.pure_eq, e2]
    rfl
  have hm := hfull ℕ Unit Unit exObjects false [] [.setSolver "QLD"] [exGrip] [] [] (exStart, ())
    s1 _ () () (exOnes false) [exGripMbc] _ false exGrip_ok (by intro c hc; simp at hc) (by simp)
    hrun1 hsol
  have h01 := hm 0 exGrip rfl 1 0 _ _ rfl rfl 2 rfl
  obtain ⟨y, hy, hyv⟩ := Backend.result_full e2
  have hb1dep : b1.dep.deps = [] := by
    rw [(Backend.updateMatrix_sized e1 hz.1).1, hz.2]; rfl
  have hones : ∀ v, (Backend.qld q).result.get v = 1 := by
    intro v
    rw [hy]
    unfold fullX
    rw [hb1dep, if_neg (by simp)]
    rcases hyv with ⟨p, rfl⟩ | ⟨p, rfl⟩ <;> rfl
  have h01' : (Backend.qld q).result.get (((([exGrip] : List (MultiBody ℚ)).take 0).map
      MultiBody.nrDof).sum + dofBefore exGrip 1) = 2 * (Backend.qld q).result.get
      (((([exGrip] : List (MultiBody ℚ)).take 0).map MultiBody.nrDof).sum + dofBefore exGrip 0) := h01
  rw [hones, hones] at h01'
  norm_num at h01'

open Classical in
/-- A numerical solver that finds a minimiser whenever there is one. -/
noncomputable def exactEngine (K : Type) [Field K] [LinearOrder K] : Engines K where
  qld := fun p =>
    if h : ∃ y, p.Feasible y ∧ ∀ z, p.Feasible z → p.obj y ≤ p.obj z then
      (true, ⟨p.C.size, h.choose⟩)
    else (false, ⟨p.C.size, 0⟩)
  lssol := fun p =>
    if h : ∃ y, p.Feasible y ∧ ∀ z, p.Feasible z → p.obj y ≤ p.obj z then
      (true, ⟨p.C.size, h.choose⟩)
    else (false, ⟨p.C.size, 0⟩)
  istate := Vec.const 0 0

/-- The contract of C55 on the numerical solver is met by one that succeeds whenever there is a
minimiser. -/
theorem exactEngine_ok : EngineSized (exactEngine K) ∧ EngineOptimal (exactEngine K) := by
  refine ⟨⟨fun p => ?_, fun p => ?_⟩, ⟨fun p => ?_, fun p => ?_⟩⟩ <;> simp only [exactEngine] <;>
    split
  · rfl
  · rfl
  · rfl
  · rfl
  · rename_i h; exact fun _ => h.choose_spec
  · intro h; cases h
  · rename_i h; exact fun _ => h.choose_spec
  · intro h; cases h

/-! ## C05: the sizes come from `updateConstrSize` -/

theorem foldl_add_sum {α : Type} (l : List α) (f : α → ℕ) (a : ℕ) :
    l.foldl (fun acc o => acc + f o) a = a + (l.map f).sum := by
  induction l generalizing a with
  | nil => simp
  | cons b t ih => simp [ih, add_assoc]

/-- **C05** (sizes).  After `updateConstrSize` the sizes the solver has are the sums over the
registered constraints of their maximum number of lines, so the assembly fits (`InputFits`) as long
as no object announces more and every block lies within the variables. -/
theorem C05_updateConstrSize_fits (ob : Objects K Ob W R) (s : Solver K Ob) (w w' : W)
    (hin : InputSized s.data.nrVars (s.input ob w'))
    (h1 : ∀ o ∈ s.regs.rows .eq, (ob.eq w' o).maxEq ≤ (ob.eq w o).maxEq)
    (h2 : ∀ o ∈ s.regs.rows .inEq, (ob.inEq w' o).maxInEq ≤ (ob.inEq w o).maxInEq)
    (h3 : ∀ o ∈ s.regs.rows .genInEq, (ob.gen w' o).maxGen ≤ (ob.gen w o).maxGen) :
    let s' := s.updateConstrSize ob w
    s'.maxEq = maxEq (s.input ob w) ∧ s'.maxInEq = maxInEq (s.input ob w) ∧
    s'.maxGen = maxGen (s.input ob w) ∧
    InputFits s'.data.nrVars s'.maxEq s'.maxInEq s'.maxGen (s'.input ob w') := by
  simp only [Solver.updateConstrSize, foldl_add_sum, zero_add]
  refine ⟨by simp [maxEq, Solver.input, Function.comp_def],
    by simp [maxInEq, Solver.input, Function.comp_def],
    by simp [maxGen, Solver.input, Function.comp_def], hin, ?_, ?_, ?_⟩
  · simp only [maxEq, Solver.input, List.map_map]
    exact sum_map_le _ _ _ h1
  · simp only [maxInEq, Solver.input, List.map_map]
    exact sum_map_le _ _ _ h2
  · simp only [maxGen, Solver.input, List.map_map]
    exact sum_map_le _ _ _ h3

end Verif
