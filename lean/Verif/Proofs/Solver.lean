import Verif.Model.Solver
import Verif.Proofs.Sizes
import Verif.Proofs.Robots
import Verif.Props.Mimic

/-! # The solver object: backends and histories of calls -/

set_option autoImplicit false
set_option linter.unusedSectionVars false

namespace Verif

open Finset Spec

variable {K Ob W R : Type} [Field K] [LinearOrder K] [IsStrictOrderedRing K] [DecidableEq Ob]

/-! ## Backends -/

namespace Spec

/-- The numerical solvers return a vector with one entry per variable of the problem they got. -/
def EngineSized (eng : Engines K) : Prop :=
  (∀ p, (eng.qld p).2.size = p.C.size) ∧ ∀ p, (eng.lssol p).2.size = p.C.size

/-- When a numerical solver reports success its answer is feasible for the problem it got, and no
feasible point is better. -/
def EngineOptimal (eng : Engines K) : Prop :=
  (∀ p, (eng.qld p).1 = true → p.Feasible (eng.qld p).2.get ∧
    ∀ z, p.Feasible z → p.obj (eng.qld p).2.get ≤ p.obj z) ∧
  ∀ p, (eng.lssol p).1 = true → p.Feasible (eng.lssol p).2.get ∧
    ∀ z, p.Feasible z → p.obj (eng.lssol p).2.get ≤ p.obj z

end Spec

namespace Backend

/-- Allocated sizes. -/
def SizedFor (n e i g : ℕ) : Backend K → Prop
  | qld s => s.SizedFor n e (i + g * 2)
  | lssol s => s.SizedFor n (e + i + g)

theorem updateSize_sized (n e i g : ℕ) (b : Backend K) :
    (b.updateSize n e i g).SizedFor n e i g ∧ (b.updateSize n e i g).dep = b.dep := by
  cases b with
  | qld s => exact Qld.updateSize_sized n e i g s
  | lssol s => exact Lssol.updateSize_sized n e i g s

theorem updateMatrix_sized {inp : QPInput K} {b b' : Backend K} {n e i g : ℕ}
    (h : b.updateMatrix inp = .ok b') (hs : b.SizedFor n e i g) :
    b'.dep = b.dep ∧ b'.SizedFor n e i g := by
  cases b with
  | qld s =>
    simp only [updateMatrix, Out.bind_eq_ok, Out.pure_eq, Out.ok.injEq] at h
    obtain ⟨s', h, rfl⟩ := h
    exact Qld.updateMatrix_sized h hs
  | lssol s =>
    simp only [updateMatrix, Out.bind_eq_ok, Out.pure_eq, Out.ok.injEq] at h
    obtain ⟨s', h, rfl⟩ := h
    exact Lssol.updateMatrix_sized h hs

theorem solve_sized {eng : Engines K} {b b' : Backend K} {ok : Bool} {n e i g : ℕ}
    (h : b.solve eng = .ok (ok, b')) (hs : b.SizedFor n e i g) :
    b'.dep = b.dep ∧ b'.SizedFor n e i g := by
  cases b with
  | qld s =>
    simp only [solve, Qld.solve, Out.bind_eq_ok] at h
    obtain ⟨⟨f, s'⟩, ⟨p, hp, h1⟩, h2⟩ := h
    cases h2
    split at h1
    · simp only [Out.bind_eq_ok] at h1
      obtain ⟨X, _, h1⟩ := h1
      cases h1
      exact ⟨rfl, ⟨hs.Qr, hs.Qc, hs.C, hs.Er, hs.Ec, hs.b, hs.Ir, hs.Ic, hs.bi, hs.XL, hs.XU,
        hs.rXL, hs.rXU⟩⟩
    · cases h1
      exact ⟨rfl, ⟨hs.Qr, hs.Qc, hs.C, hs.Er, hs.Ec, hs.b, hs.Ir, hs.Ic, hs.bi, hs.XL, hs.XU,
        hs.rXL, hs.rXU⟩⟩
  | lssol s =>
    simp only [solve, Lssol.solve, Out.bind_eq_ok] at h
    obtain ⟨⟨f, s'⟩, ⟨p, hp, h1⟩, h2⟩ := h
    cases h2
    split at h1
    · simp only [Out.bind_eq_ok] at h1
      obtain ⟨X, _, h1⟩ := h1
      cases h1
      exact ⟨rfl, ⟨hs.Qr, hs.Qc, hs.C, hs.Ar, hs.Ac, hs.AL, hs.AU, hs.XL, hs.XU, hs.rXL, hs.rXU⟩⟩
    · cases h1
      exact ⟨rfl, ⟨hs.Qr, hs.Qc, hs.C, hs.Ar, hs.Ac, hs.AL, hs.AU, hs.XL, hs.XU, hs.rXL, hs.rXU⟩⟩

theorem setDependencies_dep {n : ℕ} {deps : List (Dep K)} {b b' : Backend K}
    (h : b.setDependencies n deps = .ok b') :
    Verif.setDependencies n deps b.dep = .ok b'.dep := by
  cases b <;>
  · simp only [setDependencies, Out.bind_eq_ok, Out.pure_eq, Out.ok.injEq] at h
    obtain ⟨d, hd, rfl⟩ := h
    exact hd

/-- Whatever the backend answers, its result is a full vector obtained from its own variables. -/
theorem result_spec {eng : Engines K} (hE : EngineSized eng) {b b' : Backend K} {ok : Bool}
    {n : ℕ} (hd : DepOK n b.dep) (h : b.solve eng = .ok (ok, b'))
    (hp : match b with
      | qld s => ∀ p, s.problem = .ok p → p.C.size = n - b.dep.deps.length
      | lssol s => ∀ p, s.problem = .ok p → p.C.size = n - b.dep.deps.length) :
    b'.result.size = n ∧ ∃ y : ℕ → K, (∀ v, b'.result.get v = fullX b.dep y v) ∧
      match b with
      | qld s => ∃ p, s.problem = .ok p ∧ ok = (eng.qld p).1 ∧ y = (eng.qld p).2.get
      | lssol s => ∃ p, s.problem = .ok p ∧ ok = (eng.lssol p).1 ∧ y = (eng.lssol p).2.get := by
  cases b with
  | qld s =>
    simp only [solve, Qld.solve, Out.bind_eq_ok] at h
    obtain ⟨⟨f, s'⟩, ⟨p, hpp, h1⟩, h2⟩ := h
    cases h2
    have hsz := hp p hpp
    split at h1
    · rename_i hne
      simp only [Out.bind_eq_ok] at h1
      obtain ⟨X, hX, h1⟩ := h1
      cases h1
      unfold expandResult at hX
      split at hX
      · cases hX
        rcases hd with h0 | ⟨deps, hwf, hsp⟩
        · exact absurd (by rw [show s.dep.deps = [] from h0]; rfl : s.dep.deps.length = 0) hne
        · refine ⟨by simp [result, Qld.result, hne]; exact hsp.rows, (eng.qld p).2.get, fun v => ?_,
            p, hpp, rfl, rfl⟩
          simp [result, Qld.result, hne, fullX, Spec.expand, dep]
      · cases hX
    · rename_i hne
      cases h1
      simp only [not_not] at hne
      refine ⟨?_, (eng.qld p).2.get, fun v => ?_, p, hpp, rfl, rfl⟩
      · simp [result, Qld.result, hne]
        rw [hE.1, hsz]; simp [dep, hne]
      · simp [result, Qld.result, hne, fullX, dep]
  | lssol s =>
    simp only [solve, Lssol.solve, Out.bind_eq_ok] at h
    obtain ⟨⟨f, s'⟩, ⟨p, hpp, h1⟩, h2⟩ := h
    cases h2
    have hsz := hp p hpp
    split at h1
    · rename_i hne
      simp only [Out.bind_eq_ok] at h1
      obtain ⟨X, hX, h1⟩ := h1
      cases h1
      unfold expandResult at hX
      split at hX
      · cases hX
        rcases hd with h0 | ⟨deps, hwf, hsp⟩
        · exact absurd (by rw [show s.dep.deps = [] from h0]; rfl : s.dep.deps.length = 0) hne
        · refine ⟨by simp [result, Lssol.result, hne]; exact hsp.rows, (eng.lssol p).2.get,
            fun v => ?_, p, hpp, rfl, rfl⟩
          simp [result, Lssol.result, hne, fullX, Spec.expand, dep]
      · cases hX
    · rename_i hne
      cases h1
      simp only [not_not] at hne
      refine ⟨?_, (eng.lssol p).2.get, fun v => ?_, p, hpp, rfl, rfl⟩
      · simp [result, Lssol.result, hne]
        rw [hE.2, hsz]; simp [dep, hne]
      · simp [result, Lssol.result, hne, fullX, dep]

/-- Assembly followed by a solve, on a backend with the right sizes. -/
theorem assemble_solve {eng : Engines K} (hE : EngineSized eng) {b : Backend K} {n e i g : ℕ}
    (hs : b.SizedFor n e i g) (hd : DepOK n b.dep) {inp : QPInput K} (hf : InputFits n e i g inp) :
    ∃ b1 ok b2, b.updateMatrix inp = .ok b1 ∧ b1.solve eng = .ok (ok, b2) ∧ b2.dep = b.dep ∧
      b2.result.size = n ∧ ∃ y : ℕ → K, (∀ v, b2.result.get v = fullX b.dep y v) ∧
        (EngineOptimal eng → ok = true →
          SatLines n inp (fullX b.dep y) ∧ BoundsAt n inp b.dep.deps (fullX b.dep y) ∧
          ∀ z, SatLines n inp (fullX b.dep z) → BoundsAt n inp b.dep.deps (fullX b.dep z) →
            objective n inp (fullX b.dep y) ≤ objective n inp (fullX b.dep z)) := by
  obtain ⟨hin, m1, m2, m3⟩ := hf
  obtain ⟨l1, l2, l3⟩ := active_le hin
  cases b with
  | qld s =>
    obtain ⟨s1, p, e1, hdep, hs1, e2, c1, _, _, _, _, _, _, _, _, hl, hb, ho, _⟩ :=
      Qld.assembled hin hs (by omega) (by omega) hd
    have e1' : (qld s).updateMatrix inp = .ok (qld s1) := by
      simp only [updateMatrix, e1, Out.ok_bind, Out.pure_eq]
    have hsolve : ∃ ok b2, (qld s1).solve eng = .ok (ok, b2) := by
      simp only [solve, Qld.solve, e2, Out.ok_bind]
      by_cases hne : s1.dep.deps.length ≠ 0
      · rw [if_pos hne]
        have : (eng.qld p).2.size = s1.dep.M.cols := by
          rw [hE.1, c1, hdep]
          rcases hd with h0 | ⟨deps, hwf, hsp⟩
          · rw [hdep] at hne
            exact absurd (by simp [show s.dep.deps = [] from h0]) hne
          · rw [show s.dep.M.cols = _ from hsp.cols, show s.dep.deps.length = _ from hsp.perm.length_eq]
        simp [expandResult, this]
      · rw [if_neg hne]
        exact ⟨_, _, rfl⟩
    obtain ⟨ok, b2, hsol⟩ := hsolve
    have hd1 : DepOK n (qld s1).dep := by
      change DepOK n s1.dep
      rw [hdep]; exact hd
    have hps : ∀ p', s1.problem = .ok p' → p'.C.size = n - (qld s1).dep.deps.length := by
      intro p' hp'
      rw [e2] at hp'
      cases hp'
      change _ = n - s1.dep.deps.length
      rw [hdep]; exact c1
    obtain ⟨r1, y, r2, p', hp', rok, ry⟩ := result_spec hE hd1 hsol hps
    have hdd : (qld s1).dep = (qld s).dep := hdep
    rw [hdd] at r2
    obtain ⟨d1, _⟩ := solve_sized hsol hs1
    refine ⟨qld s1, ok, b2, e1', hsol, by rw [d1, hdd], r1, y, r2, ?_⟩
    intro hO hok
    rw [e2] at hp'
    cases hp'
    obtain ⟨hfe, hopt⟩ := hO.1 p (by rw [← rok]; exact hok)
    rw [← ry] at hfe hopt
    refine ⟨(hl y).mp hfe.1, (hb y).mp hfe.2, fun z hz1 hz2 => ?_⟩
    have := hopt z ⟨(hl z).mpr hz1, (hb z).mpr hz2⟩
    rw [ho, ho] at this
    exact this
  | lssol s =>
    obtain ⟨s1, p, e1, hdep, hs1, e2, c1, _, _, _, _, _, _, hl, hb, ho, _⟩ :=
      Lssol.assembled hin hs (by omega) hd
    have e1' : (lssol s).updateMatrix inp = .ok (lssol s1) := by
      simp only [updateMatrix, e1, Out.ok_bind, Out.pure_eq]
    have hsolve : ∃ ok b2, (lssol s1).solve eng = .ok (ok, b2) := by
      simp only [solve, Lssol.solve, e2, Out.ok_bind]
      by_cases hne : s1.dep.deps.length ≠ 0
      · rw [if_pos hne]
        have : (eng.lssol p).2.size = s1.dep.M.cols := by
          rw [hE.2, c1, hdep]
          rcases hd with h0 | ⟨deps, hwf, hsp⟩
          · rw [hdep] at hne
            exact absurd (by simp [show s.dep.deps = [] from h0]) hne
          · rw [show s.dep.M.cols = _ from hsp.cols, show s.dep.deps.length = _ from hsp.perm.length_eq]
        simp [expandResult, this]
      · rw [if_neg hne]
        exact ⟨_, _, rfl⟩
    obtain ⟨ok, b2, hsol⟩ := hsolve
    have hd1 : DepOK n (lssol s1).dep := by
      change DepOK n s1.dep
      rw [hdep]; exact hd
    have hps : ∀ p', s1.problem = .ok p' → p'.C.size = n - (lssol s1).dep.deps.length := by
      intro p' hp'
      rw [e2] at hp'
      cases hp'
      change _ = n - s1.dep.deps.length
      rw [hdep]; exact c1
    obtain ⟨r1, y, r2, p', hp', rok, ry⟩ := result_spec hE hd1 hsol hps
    have hdd : (lssol s1).dep = (lssol s).dep := hdep
    rw [hdd] at r2
    obtain ⟨d1, _⟩ := solve_sized hsol hs1
    refine ⟨lssol s1, ok, b2, e1', hsol, by rw [d1, hdd], r1, y, r2, ?_⟩
    intro hO hok
    rw [e2] at hp'
    cases hp'
    obtain ⟨hfe, hopt⟩ := hO.2 p (by rw [← rok]; exact hok)
    rw [← ry] at hfe hopt
    refine ⟨(hl y).mp hfe.1, (hb y).mp hfe.2, fun z hz1 hz2 => ?_⟩
    have := hopt z ⟨(hl z).mpr hz1, (hb z).mpr hz2⟩
    rw [ho, ho] at this
    exact this

end Backend

/-! ## Data untouched by the control steps -/

/-- Two solver data with the same layout. -/
def SameLayout (d d' : SolverData K) : Prop :=
  { d' with normalAccB := d.normalAccB } = d

theorem SameLayout.refl (d : SolverData K) : SameLayout d d := rfl

theorem SameLayout.trans {a b c : SolverData K} (h1 : SameLayout a b) (h2 : SameLayout b c) :
    SameLayout a c := by
  unfold SameLayout at *
  rw [← h1, ← h2]

theorem computeNormalAccB_layout {mbs : List (MultiBody K)} {mbcs : List (Mbc K R)}
    {d d' : SolverData K} (h : computeNormalAccB mbs mbcs d = .ok d') : SameLayout d d' := by
  refine forEach_inv (fun t => SameLayout d t) (SameLayout.refl d) ?_ h
  intro r _ t t' ht hstep
  simp only [normalAccRobot, Out.bind_eq_ok, Out.pure_eq, Out.ok.injEq] at hstep
  obtain ⟨mb, _, mbc, _, acc, _, acc', _, nB, _, rfl⟩ := hstep
  exact ht

/-! ## The invariant kept by all calls after `nrVars` -/

/-- The solver has been told the robots `mbs` and contacts, and its backend agrees. -/
structure Ready (mbs : List (MultiBody K)) (uni : List (UniContact K)) (bi : List (BiContact K))
    (s : Solver K Ob) : Prop where
  lay : ∃ old d0, layout old mbs uni bi = .ok (d0, allDeps mbs 0) ∧ SameLayout d0 s.data
  sized : s.backend.SizedFor s.data.nrVars s.maxEq s.maxInEq s.maxGen
  deps : DepsAre s.data.nrVars (allDeps mbs 0) s.backend.dep

theorem layout_spec {old : SolverData K} {mbs : List (MultiBody K)} {uni : List (UniContact K)}
    {bi : List (BiContact K)} (hm : ∀ mb ∈ mbs, MimicOK mb)
    (hb : ∀ c ∈ bi, c.r1Points.length ≤ c.r1Cones.length) {d : SolverData K} {deps : List (Dep K)}
    (h : layout old mbs uni bi = .ok (d, deps)) : LayoutSpec old mbs uni bi d deps := by
  obtain ⟨d', deps', e, sp⟩ := layout_ok old mbs uni bi (fun mb h => MimicOK.named (hm mb h)) hb
  rw [h] at e
  cases e
  exact sp

theorem nrVars_ready {ob : Objects K Ob W R} {mbs : List (MultiBody K)} {uni : List (UniContact K)}
    {bi : List (BiContact K)} (hm : ∀ mb ∈ mbs, MimicOK mb)
    (hb : ∀ c ∈ bi, c.r1Points.length ≤ c.r1Cones.length) {s s' : Solver K Ob} {w w' : W}
    (h : s.nrVars ob mbs uni bi w = .ok (s', w')) : Ready mbs uni bi s' := by
  simp only [Solver.nrVars, Out.bind_eq_ok] at h
  obtain ⟨⟨d, deps⟩, hl, w1, _, w2, _, b, hbk, h⟩ := h
  cases h
  have sp := layout_spec hm hb hl
  obtain ⟨z1, z2⟩ := Backend.updateSize_sized d.nrVars s.maxEq s.maxInEq s.maxGen b
  have hdeps := sp.deps
  subst hdeps
  refine ⟨⟨s.data, d, hl, SameLayout.refl d⟩, z1, ?_⟩
  change DepsAre d.nrVars (allDeps mbs 0) (b.updateSize d.nrVars s.maxEq s.maxInEq s.maxGen).dep
  rw [z2]
  refine ⟨allDeps_DepsWF hm ?_, Or.inr ⟨_, Backend.setDependencies_dep hbk⟩⟩
  rw [sp.nrVars, sp.totalAlphaD]
  omega

theorem createQPSolver_dep {hasLssol : Bool} {name : String} {b : Backend K}
    (h : createQPSolver hasLssol name = .ok b) : b.dep = DepSt.init := by
  unfold createQPSolver qpFactory at h
  cases hasLssol
  · simp only [Bool.false_eq_true, if_false, List.nil_append] at h
    rw [List.lookup_cons] at h
    split at h
    · rename_i h1
      split at h1
      · cases h1; cases h; rfl
      · cases h1
    · cases h
  · simp only [if_true, List.cons_append, List.nil_append] at h
    rw [List.lookup_cons, List.lookup_cons] at h
    split at h
    · rename_i h1
      split at h1
      · cases h1; cases h; rfl
      · split at h1
        · cases h1; cases h; rfl
        · cases h1
    · cases h

theorem solveNoMbcUpdate_parts {ob : Objects K Ob W R} {eng : Engines K} {mbs : List (MultiBody K)}
    {mbcs : List (Mbc K R)} {s s' : Solver K Ob} {w w' : W} {ok : Bool} {msg : List DiagEntry}
    (h : s.solveNoMbcUpdate ob eng mbs mbcs w = .ok (ok, msg, s', w')) :
    ∃ d w1 b1 b2, computeNormalAccB mbs mbcs s.data = .ok d ∧
      forEach s.regs.constr (fun c w => ob.cUpdate c mbs mbcs d w) w = .ok w1 ∧
      forEach s.tasks (fun t w => ob.tUpdate t mbs mbcs d w) w1 = .ok w' ∧
      s.backend.updateMatrix (s.input ob w') = .ok b1 ∧ b1.solve eng = .ok (ok, b2) ∧
      s' = { s with
        data := d, backend := b2 } ∧
      (if ok then Out.ok [] else b2.errorMsg eng (s.input ob w')) = .ok msg := by
  simp only [Solver.solveNoMbcUpdate, Solver.preUpdate, Out.bind_eq_ok] at h
  obtain ⟨⟨s1, w1⟩, ⟨d, hd, wa, ha, wb, hb, b1, hb1, h1⟩, ⟨o, b2⟩, hb2, h2⟩ := h
  cases h1
  dsimp only at h2 hb2
  cases o
  · simp only [Bool.false_eq_true, if_false, Out.bind_eq_ok] at h2
    obtain ⟨m, hm, h2⟩ := h2
    cases h2
    exact ⟨d, wa, b1, b2, hd, ha, hb, hb1, hb2, rfl, hm⟩
  · cases h2
    exact ⟨d, wa, b1, b2, hd, ha, hb, hb1, hb2, rfl, rfl⟩

theorem solve_parts {ob : Objects K Ob W R} {eng : Engines K} {mbs : List (MultiBody K)}
    {mbcs mbcs' : List (Mbc K R)} {s s' : Solver K Ob} {w w' : W} {ok : Bool}
    (h : s.solve ob eng mbs mbcs w = .ok (ok, mbcs', s', w')) :
    (∃ msg, s.solveNoMbcUpdate ob eng mbs mbcs w = .ok (ok, msg, s', w')) ∧
      (if ok then s'.updateMbcs mbcs 0 else .ok mbcs) = .ok mbcs' := by
  simp only [Solver.solve, Out.bind_eq_ok] at h
  obtain ⟨⟨o, m, s1, w1⟩, h1, h2⟩ := h
  dsimp only at h2
  cases o
  · cases h2
    exact ⟨⟨m, h1⟩, rfl⟩
  · simp only [if_true, Out.bind_eq_ok] at h2
    obtain ⟨mb, h2, h3⟩ := h2
    cases h3
    exact ⟨⟨m, h1⟩, h2⟩

theorem Ready.solveNoMbcUpdate {ob : Objects K Ob W R} {eng : Engines K}
    {mbs mbs' : List (MultiBody K)} {uni : List (UniContact K)} {bi : List (BiContact K)}
    {mbcs : List (Mbc K R)} {s s' : Solver K Ob} {w w' : W} {ok : Bool} {msg : List DiagEntry}
    (hr : Ready mbs uni bi s) (h : s.solveNoMbcUpdate ob eng mbs' mbcs w = .ok (ok, msg, s', w')) :
    Ready mbs uni bi s' := by
  obtain ⟨d, w1, b1, b2, hd, _, _, h1, h2, rfl, _⟩ := solveNoMbcUpdate_parts h
  obtain ⟨⟨old, d0, hl, hsame⟩, hs, hdep⟩ := hr
  have hsl := computeNormalAccB_layout hd
  obtain ⟨e1, z1⟩ := Backend.updateMatrix_sized h1 hs
  obtain ⟨e2, z2⟩ := Backend.solve_sized h2 z1
  have hn : d.nrVars = s.data.nrVars := by
    have := congrArg SolverData.nrVars (show { d with normalAccB := s.data.normalAccB } = s.data from hsl)
    exact this
  refine ⟨⟨old, d0, hl, hsame.trans hsl⟩, ?_, ?_⟩
  · change b2.SizedFor d.nrVars s.maxEq s.maxInEq s.maxGen
    rw [hn]; exact z2
  · change DepsAre d.nrVars _ b2.dep
    rw [hn, e2, e1]; exact hdep

theorem Ready.setSolver {mbs : List (MultiBody K)} {uni : List (UniContact K)}
    {bi : List (BiContact K)} {s s' : Solver K Ob} {hasLssol : Bool} {name : String}
    (hr : Ready mbs uni bi s) (h0 : allDeps mbs 0 = [])
    (h : s.setSolver hasLssol name = .ok s') : Ready mbs uni bi s' := by
  simp only [Solver.setSolver, Out.bind_eq_ok] at h
  obtain ⟨b, hb, h⟩ := h
  cases h
  obtain ⟨z1, z2⟩ := Backend.updateSize_sized s.data.nrVars s.maxEq s.maxInEq s.maxGen b
  refine ⟨hr.lay, z1, ?_⟩
  refine ⟨hr.deps.1, Or.inl ⟨h0, ?_⟩⟩
  exact z2.trans (createQPSolver_dep hb)

theorem addConstr_state {ob : Objects K Ob W R} {mbs : Option (List (MultiBody K))} {o : Ob}
    {s s' : Solver K Ob} {w w' : W} (h : s.addConstr ob mbs o w = .ok (s', w')) :
    ∃ r, s' = { s with regs := r } := by
  unfold Solver.addConstr at h
  cases mbs with
  | none => cases h; exact ⟨_, rfl⟩
  | some l =>
    dsimp only at h
    split at h
    · simp only [Out.bind_eq_ok] at h
      obtain ⟨w1, _, h⟩ := h
      cases h
      exact ⟨_, rfl⟩
    · cases h; exact ⟨_, rfl⟩

theorem addTask_state {ob : Objects K Ob W R} {mbs : Option (List (MultiBody K))} {o : Ob}
    {s s' : Solver K Ob} {w w' : W} (h : s.addTask ob mbs o w = .ok (s', w')) :
    ∃ t, s' = { s with tasks := t } := by
  unfold Solver.addTask at h
  cases mbs with
  | none => cases h; exact ⟨_, rfl⟩
  | some l =>
    dsimp only at h
    split at h
    · simp only [Out.bind_eq_ok] at h
      obtain ⟨w1, _, h⟩ := h
      cases h
      exact ⟨_, rfl⟩
    · cases h; exact ⟨_, rfl⟩

theorem Ready.run {ob : Objects K Ob W R} {hasLssol : Bool} {mbs : List (MultiBody K)}
    {uni : List (UniContact K)} {bi : List (BiContact K)} {c : Call K Ob W R}
    (hc : match c with
      | .nrVars .. => False
      | .setSolver _ => allDeps mbs 0 = []
      | _ => True)
    {sw sw' : Solver K Ob × W} (hr : Ready mbs uni bi sw.1) (h : c.run ob hasLssol sw = .ok sw') :
    Ready mbs uni bi sw'.1 := by
  obtain ⟨s, w⟩ := sw
  obtain ⟨s', w'⟩ := sw'
  dsimp only at hr ⊢
  cases c with
  | nrVars => exact hc.elim
  | updateConstrSize =>
    simp only [Call.run] at h
    cases h
    obtain ⟨z1, z2⟩ := Backend.updateSize_sized s.data.nrVars
      ((s.regs.rows .eq).foldl (fun acc o => acc + (ob.eq w o).maxEq) 0)
      ((s.regs.rows .inEq).foldl (fun acc o => acc + (ob.inEq w o).maxInEq) 0)
      ((s.regs.rows .genInEq).foldl (fun acc o => acc + (ob.gen w o).maxGen) 0) s.backend
    refine ⟨hr.lay, z1, ?_⟩
    have := hr.deps
    rw [← z2] at this
    exact this
  | updateNrVars mbs' =>
    simp only [Call.run, Out.bind_eq_ok] at h
    obtain ⟨w1, _, w2, _, h⟩ := h
    cases h
    exact hr
  | setSolver name =>
    simp only [Call.run, Out.bind_eq_ok] at h
    obtain ⟨s1, h1, h⟩ := h
    cases h
    exact hr.setSolver hc h1
  | addConstr mbs' o =>
    obtain ⟨r, rfl⟩ := addConstr_state h
    exact ⟨hr.lay, hr.sized, hr.deps⟩
  | removeConstr o =>
    simp only [Call.run, Solver.removeConstr, Out.bind_eq_ok] at h
    obtain ⟨s1, ⟨r, _, h1⟩, h⟩ := h
    cases h1
    cases h
    exact ⟨hr.lay, hr.sized, hr.deps⟩
  | addTask mbs' o =>
    obtain ⟨t, rfl⟩ := addTask_state h
    exact ⟨hr.lay, hr.sized, hr.deps⟩
  | removeTask o =>
    cases h
    exact ⟨hr.lay, hr.sized, hr.deps⟩
  | resetTasks =>
    cases h
    exact ⟨hr.lay, hr.sized, hr.deps⟩
  | solve eng mbs' mbcs =>
    simp only [Call.run, Out.bind_eq_ok] at h
    obtain ⟨⟨o, m, s1, w1⟩, h1, h⟩ := h
    cases h
    obtain ⟨⟨msg, h2⟩, _⟩ := solve_parts h1
    exact hr.solveNoMbcUpdate h2
  | solveNoMbcUpdate eng mbs' mbcs =>
    simp only [Call.run, Out.bind_eq_ok] at h
    obtain ⟨⟨o, m, s1, w1⟩, h1, h⟩ := h
    cases h
    exact hr.solveNoMbcUpdate h1
  | user f =>
    cases h
    exact hr

/-! ## Writing the accelerations -/

theorem fillInner_spec {v : Vec K} {l l' : List K} {p p' : ℕ}
    (h : fillInner v l p = .ok (l', p')) :
    p' = p + l.length ∧ l'.length = l.length ∧ (l = [] ∨ p' ≤ v.size) ∧
      l' = (List.range l.length).map fun k => v.get (p + k) := by
  induction l generalizing p l' p' with
  | nil => cases h; simp
  | cons a t ih =>
    simp only [fillInner, Out.bind_eq_ok] at h
    obtain ⟨x, hx, ⟨t', q⟩, ht, h⟩ := h
    cases h
    obtain ⟨e1, e2, e3, e4⟩ := ih ht
    have hxv : x = v.get p ∧ p < v.size := by
      unfold Vec.at' at hx
      split at hx
      · cases hx; exact ⟨rfl, by assumption⟩
      · cases hx
    refine ⟨by simp; omega, by simp [e2], Or.inr ?_, ?_⟩
    · rcases e3 with rfl | e3
      · simp at e1; omega
      · omega
    · rw [e4, List.length_cons, List.range_succ_eq_map, hxv.1]
      simp only [List.map_cons, add_zero, List.map_map, List.cons.injEq, true_and]
      apply List.map_congr_left
      intro k _
      simp only [Function.comp]
      congr 1
      omega

theorem vectorToParam_spec {v : Vec K} {l l' : List (List K)} {p : ℕ}
    (h : vectorToParam v l p = .ok l') :
    l'.map List.length = l.map List.length ∧
      l'.flatten = (List.range l.flatten.length).map (fun k => v.get (p + k)) ∧
      (l.flatten = [] ∨ p + l.flatten.length ≤ v.size) := by
  induction l generalizing p l' with
  | nil => cases h; simp
  | cons a t ih =>
    simp only [vectorToParam, Out.bind_eq_ok] at h
    obtain ⟨⟨a', q⟩, ha, t', ht, h⟩ := h
    cases h
    obtain ⟨e1, e2, e3, e4⟩ := fillInner_spec ha
    obtain ⟨f1, f2, f3⟩ := ih ht
    refine ⟨by simp [f1, e2], ?_, ?_⟩
    · rw [List.flatten_cons, f2, e4, List.flatten_cons, List.length_append, List.range_add,
        List.map_append, List.map_map, e1]
      congr 1
      apply List.map_congr_left
      intro k _
      simp only [Function.comp]
      congr 1
      omega
    · rcases f3 with f3 | f3
      · rcases e3 with rfl | e3
        · left; simpa using f3
        · right; simp only [List.flatten_cons, f3, List.append_nil]; omega
      · right; simp only [List.flatten_cons, List.length_append]; omega

theorem fillInner_ok (v : Vec K) (l : List K) (p : ℕ) (h : p + l.length ≤ v.size) :
    ∃ l', fillInner v l p = .ok (l', p + l.length) := by
  induction l generalizing p with
  | nil => exact ⟨[], rfl⟩
  | cons a t ih =>
    simp only [List.length_cons] at h
    obtain ⟨t', ht⟩ := ih (p + 1) (by omega)
    refine ⟨v.get p :: t', ?_⟩
    simp only [fillInner, Vec.at', if_pos (show p < v.size by omega), Out.ok_bind, ht, Out.pure_eq,
      List.length_cons]
    congr 2
    omega

theorem vectorToParam_ok (v : Vec K) (l : List (List K)) (p : ℕ)
    (h : p + l.flatten.length ≤ v.size) : ∃ l', vectorToParam v l p = .ok l' := by
  induction l generalizing p with
  | nil => exact ⟨[], rfl⟩
  | cons a t ih =>
    simp only [List.flatten_cons, List.length_append] at h
    obtain ⟨a', ha⟩ := fillInner_ok v a p (by omega)
    obtain ⟨t', ht⟩ := ih (p + a.length) (by omega)
    refine ⟨a' :: t', ?_⟩
    simp only [vectorToParam, ha, Out.ok_bind, ht, Out.pure_eq]

theorem updateMbcs_spec {s : Solver K Ob} {l l' : List (Mbc K R)} {r : ℕ}
    (h : s.updateMbcs l r = .ok l') :
    l'.length = l.length ∧ ∀ (k : ℕ) (m : Mbc K R), l[k]? = some m →
      ∃ v m', alphaDVecAt s.data s.backend.result (r + k) = .ok v ∧ l'[k]? = some m' ∧
        vectorToParam v m.alphaD 0 = .ok m'.alphaD ∧ m' = { m with alphaD := m'.alphaD } := by
  induction l generalizing r l' with
  | nil => cases h; simp
  | cons a t ih =>
    simp only [Solver.updateMbcs, Solver.updateMbc, Out.bind_eq_ok] at h
    obtain ⟨m', ⟨v, hv, al, hal, hm⟩, t', ht, h⟩ := h
    cases hm
    cases h
    obtain ⟨e1, e2⟩ := ih ht
    refine ⟨by simp [e1], fun k m hk => ?_⟩
    cases k with
    | zero =>
      simp only [List.getElem?_cons_zero, Option.some.injEq] at hk
      subst hk
      exact ⟨v, { a with alphaD := al }, hv, by simp, hal, rfl⟩
    | succ k =>
      simp only [List.getElem?_cons_succ] at hk
      obtain ⟨v, m', h1, h2, h3, h4⟩ := e2 k m hk
      exact ⟨v, m', by rw [← h1]; congr 1; omega, by simpa using h2, h3, h4⟩

theorem updateMbcs_ok {s : Solver K Ob} (l : List (Mbc K R)) (r : ℕ)
    (h : ∀ (k : ℕ) (m : Mbc K R), l[k]? = some m → ∃ v, alphaDVecAt s.data s.backend.result (r + k) = .ok v ∧
      m.alphaD.flatten.length ≤ v.size) : ∃ l', s.updateMbcs l r = .ok l' := by
  induction l generalizing r with
  | nil => exact ⟨[], rfl⟩
  | cons a t ih =>
    obtain ⟨v, hv, hlen⟩ := h 0 a (by simp)
    obtain ⟨al, hal⟩ := vectorToParam_ok v a.alphaD 0 (by omega)
    obtain ⟨t', ht⟩ := ih (r + 1) (fun k m hk => by
      obtain ⟨v, h1, h2⟩ := h (k + 1) m (by simpa using hk)
      exact ⟨v, by rw [← h1]; congr 1; omega, h2⟩)
    rw [add_zero] at hv
    refine ⟨{ a with alphaD := al } :: t', ?_⟩
    simp only [Solver.updateMbcs, Solver.updateMbc, hv, Out.ok_bind, hal, Out.pure_eq, ht]

/-- The slices of the result that the accessors return. -/
theorem Ready.alphaDVecAt {mbs : List (MultiBody K)} {uni : List (UniContact K)}
    {bi : List (BiContact K)} (hm : ∀ mb ∈ mbs, MimicOK mb)
    (hb : ∀ c ∈ bi, c.r1Points.length ≤ c.r1Cones.length) {s : Solver K Ob}
    (hr : Ready mbs uni bi s) {x : Vec K} {r : ℕ} :
    (∀ mb, mbs[r]? = some mb → x.size = s.data.nrVars →
      Verif.alphaDVecAt s.data x r = .ok ⟨mb.nrDof, fun i =>
        x.get (((mbs.take r).map MultiBody.nrDof).sum + i)⟩) ∧
    (mbs[r]? = none → Verif.alphaDVecAt s.data x r = .ub) := by
  obtain ⟨⟨old, d0, hl, hsame⟩, _, _⟩ := hr
  have sp := layout_spec hm hb hl
  have e1 : s.data.alphaD = d0.alphaD := by
    have := congrArg SolverData.alphaD (show { s.data with normalAccB := d0.normalAccB } = d0 from hsame)
    exact this
  have e2 : s.data.alphaDBegin = d0.alphaDBegin := by
    have := congrArg SolverData.alphaDBegin (show { s.data with normalAccB := d0.normalAccB } = d0 from hsame)
    exact this
  have e3 : s.data.nrVars = d0.nrVars := by
    have := congrArg SolverData.nrVars (show { s.data with normalAccB := d0.normalAccB } = d0 from hsame)
    exact this
  constructor
  · intro mb hmb hx
    obtain ⟨hlt, hget⟩ := List.getElem?_eq_some_iff.mp hmb
    have hb1 : vecAt (starts 0 (mbs.map MultiBody.nrDof)) r
        = .ok ((mbs.take r).map MultiBody.nrDof).sum := by
      rw [vecAt_ok (by simpa using hlt), getElem_starts]
      simp [List.map_take]
    have hb2 : vecAt (mbs.map MultiBody.nrDof) r = .ok mb.nrDof := by
      rw [vecAt_ok (by simpa using hlt)]
      simp [hget]
    unfold Verif.alphaDVecAt
    rw [e1, e2, sp.alphaD, sp.alphaDBegin, hb1, Out.ok_bind, hb2, Out.ok_bind]
    have hle : ((mbs.take r).map MultiBody.nrDof).sum + mb.nrDof ≤ x.size := by
      rw [hx, e3, sp.nrVars, sp.totalAlphaD]
      have h2 : ((mbs.take (r + 1)).map MultiBody.nrDof).sum ≤ (mbs.map MultiBody.nrDof).sum := by
        obtain ⟨t, ht⟩ := List.take_prefix (r + 1) mbs
        conv_rhs => rw [← ht]
        simp
      rw [List.take_add_one, hmb] at h2
      simp only [Option.toList_some, List.map_append, List.sum_append, List.map_cons, List.map_nil,
        List.sum_cons, List.sum_nil] at h2
      omega
    unfold Vec.segment
    rw [if_pos hle]
  · intro hn
    rw [List.getElem?_eq_none_iff] at hn
    unfold Verif.alphaDVecAt
    rw [e2, sp.alphaDBegin, vecAt_ub (by simpa using hn)]
    rfl

theorem Ready.alphaDVecAt_eq {mbs : List (MultiBody K)} {uni : List (UniContact K)}
    {bi : List (BiContact K)} (hm : ∀ mb ∈ mbs, MimicOK mb)
    (hb : ∀ c ∈ bi, c.r1Points.length ≤ c.r1Cones.length) {s : Solver K Ob}
    (hr : Ready mbs uni bi s) {x : Vec K} {r : ℕ} {v : Vec K}
    (h : Verif.alphaDVecAt s.data x r = .ok v) :
    ∃ mb, mbs[r]? = some mb ∧ v = ⟨mb.nrDof, fun i =>
        x.get (((mbs.take r).map MultiBody.nrDof).sum + i)⟩ := by
  cases hmb : mbs[r]? with
  | none =>
    rw [(hr.alphaDVecAt hm hb (x := x)).2 hmb] at h
    cases h
  | some mb =>
    refine ⟨mb, rfl, ?_⟩
    have h2 := (hr.alphaDVecAt hm hb (x := ⟨s.data.nrVars, x.get⟩)).1 mb hmb rfl
    unfold Verif.alphaDVecAt at h h2
    simp only [Out.bind_eq_ok] at h h2
    obtain ⟨b, hb1, n, hn, hseg⟩ := h
    obtain ⟨b', hb1', n', hn', hseg'⟩ := h2
    rw [hb1] at hb1'; cases hb1'
    rw [hn] at hn'; cases hn'
    unfold Vec.segment at hseg hseg'
    split at hseg
    · split at hseg'
      · cases hseg
        exact Out.ok.inj hseg'
      · cases hseg'
    · cases hseg

/-- Whatever the backend answers, its result comes from its own variables. -/
theorem Backend.result_full {eng : Engines K} {b b' : Backend K} {ok : Bool}
    (h : b.solve eng = .ok (ok, b')) : ∃ y : ℕ → K,
    (∀ v, b'.result.get v = fullX b.dep y v) ∧
    ((∃ p, y = (eng.qld p).2.get) ∨ ∃ p, y = (eng.lssol p).2.get) := by
  cases b with
  | qld s =>
    simp only [solve, Qld.solve, Out.bind_eq_ok] at h
    obtain ⟨⟨f, s'⟩, ⟨p, hpp, h1⟩, h2⟩ := h
    cases h2
    refine ⟨(eng.qld p).2.get, fun v => ?_, Or.inl ⟨p, rfl⟩⟩
    split at h1
    · rename_i hne
      simp only [Out.bind_eq_ok] at h1
      obtain ⟨X, hX, h1⟩ := h1
      cases h1
      unfold expandResult at hX
      split at hX
      · cases hX
        simp [result, Qld.result, hne, fullX, Spec.expand, dep]
      · cases hX
    · rename_i hne
      cases h1
      simp only [not_not] at hne
      simp [result, Qld.result, hne, fullX, dep]
  | lssol s =>
    simp only [solve, Lssol.solve, Out.bind_eq_ok] at h
    obtain ⟨⟨f, s'⟩, ⟨p, hpp, h1⟩, h2⟩ := h
    cases h2
    refine ⟨(eng.lssol p).2.get, fun v => ?_, Or.inr ⟨p, rfl⟩⟩
    split at h1
    · rename_i hne
      simp only [Out.bind_eq_ok] at h1
      obtain ⟨X, hX, h1⟩ := h1
      cases h1
      unfold expandResult at hX
      split at hX
      · cases hX
        simp [result, Lssol.result, hne, fullX, Spec.expand, dep]
      · cases hX
    · rename_i hne
      cases h1
      simp only [not_not] at hne
      simp [result, Lssol.result, hne, fullX, dep]

/-- Entry by entry. -/
theorem vectorToParam_get {v : Vec K} {l l' : List (List K)} {p : ℕ}
    (h : vectorToParam v l p = .ok l') (i : ℕ) (a : List K) (hi : l[i]? = some a) :
    l'[i]? = some ((List.range a.length).map fun k =>
      v.get (p + ((l.take i).map List.length).sum + k)) := by
  induction l generalizing p l' i with
  | nil => simp at hi
  | cons b t ih =>
    simp only [vectorToParam, Out.bind_eq_ok] at h
    obtain ⟨⟨a', q⟩, ha, t', ht, h⟩ := h
    cases h
    obtain ⟨e1, e2, e3, e4⟩ := fillInner_spec ha
    cases i with
    | zero =>
      simp only [List.getElem?_cons_zero, Option.some.injEq] at hi ⊢
      subst hi
      rw [e4]
      simp
    | succ i =>
      simp only [List.getElem?_cons_succ] at hi ⊢
      rw [ih ht i hi, e1]
      simp only [List.take_succ_cons, List.map_cons, List.sum_cons, Option.some.injEq]
      apply List.map_congr_left
      intro k _
      congr 1
      omega

end Verif
