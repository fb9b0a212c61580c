import Verif.Props.TargetObj
import Verif.Props.Converge
import Mathlib.Algebra.Order.Round

/-!
# C69: `TargetObjectiveTask` arrives on time

A task is created with a duration of `n` control periods, put in the quadratic program, and updated once
in each period; the robot holds the acceleration found during the period.  If the task has the quadratic
program to itself and at least three periods to go, it arrives exactly: at the end the error is zero and
the speed is `objDot`.  With one or two periods it does not.
-/

set_option autoImplicit false
set_option linter.unusedSectionVars false

namespace Verif

open Finset Spec

section
variable {K : Type} [Field K] [LinearOrder K] [IsStrictOrderedRing K]

namespace Spec

/-- A `TargetObjectiveTask` created with the duration `dur` (`n` periods of `dt`), the unknowns of its robot
beginning at `b`, updated in period `k` with the values `hl k`; every acceleration of the task can be
reached and the accelerations `y k` minimise its objective. -/
def TargetLoop (dim n : ℕ) (dt : K) (obj : ℕ → K) (b : ℕ) (hl : ℕ → HL K) (y : ℕ → ℕ → K) : Prop :=
  ∃ (round : K → Out ℤ) (mbs : List (MultiBody K)) (rI : ℕ) (dur w : K) (objDot : Vec K)
    (dw : Option (Vec K)) (junk : ℕ → ℕ → K) (d : SolverData K) (a : TargetObj K) (s : ℕ → TargetObj K),
    (∀ r, fdiv dur dt = .ok r → round r = .ok (n : ℤ)) ∧ objDot.get = obj ∧ 0 < w ∧
    (∀ v, dw = some v → ∀ i < dim, 0 < v.get i) ∧ d.alphaDBegin[rI]? = some b ∧
    TargetObj.make round mbs rI dim dt dur objDot dw w junk = .ok a ∧ a.updateNrVars d = .ok (s 0) ∧
    ∀ k < n, (s k).update dim (hl k) = .ok (s (k + 1)) ∧ (∀ tgt, TargetReached (hl k) b tgt) ∧
      Minimises (s (k + 1)).task (y k)

/-- In a period of length `dt` the task coordinate `i` moves with the constant acceleration the robot
accelerations `y` give it. -/
def HeldPeriod (dt : K) (b i : ℕ) (hl hl' : HL K) (y : ℕ → K) : Prop :=
  let acc := rowAt hl.jac b y i + hl.normalAcc.get i
  hl'.eval.get i = hl.eval.get i - (hl.speed.get i * dt + acc * dt ^ 2 / 2) ∧
    hl'.speed.get i = hl.speed.get i + acc * dt

end Spec

/-- The acceleration aimed at, from the error, the speed and the remaining duration. -/
def aim (d e v o : K) : K := 6 / d ^ 2 * (e - d * v) + 2 / (-d) * (o - v)

/-- What a loop does in each period. -/
theorem targetLoop_period {dim n : ℕ} {dt : K} {obj : ℕ → K} {b : ℕ} {hl : ℕ → HL K} {y : ℕ → ℕ → K}
    (L : TargetLoop dim n dt obj b hl y) {k : ℕ} (hk : k < n) {i : ℕ} (hi : i < dim) :
    ((n : K) - k) * dt ≠ 0 ∧ rowAt (hl k).jac b (y k) i + (hl k).normalAcc.get i
      = aim (((n : K) - k) * dt) ((hl k).eval.get i) ((hl k).speed.get i) (obj i) := by
  obtain ⟨round, mbs, rI, dur, w, objDot, dw, junk, d, a, s, hn, ho, hw, hdw, hb, hm, hnv, hs⟩ := L
  have h0 : (s 0).iter = 0 ∧ (s 0).nrIter = n ∧ (s 0).dt = dt ∧ (s 0).objDot = objDot ∧
      (∀ i < dim, 0 < (s 0).dimWeight.get i) ∧ (s 0).alphaDBegin = b ∧ (s 0).weight = w ∧
      (s 0).phi.size = dim := by
    unfold TargetObj.make at hm
    obtain ⟨mb, -, hm⟩ := Out.bind_eq_ok.1 hm
    unfold TargetObj.setDuration at hm
    obtain ⟨r, h1, hm⟩ := Out.bind_eq_ok.1 hm
    obtain ⟨m, h2, hm⟩ := Out.bind_eq_ok.1 hm
    obtain rfl := Out.ok.inj hm
    unfold TargetObj.updateNrVars at hnv
    obtain ⟨b', h3, hnv⟩ := Out.bind_eq_ok.1 hnv
    rw [← Out.ok.inj hnv]
    rw [hn r h1] at h2
    rw [vecAt_eq_ok] at h3
    dsimp only at h3
    rw [hb] at h3
    refine ⟨rfl, (Out.ok.inj h2).symm, rfl, rfl, fun i hi => ?_, (Option.some.inj h3).symm, rfl, rfl⟩
    cases dw with
    | none => simp [Vec.const]
    | some v => exact hdw v rfl i hi
  have key : ∀ k ≤ n, (s k).iter = k ∧ (s k).nrIter = n ∧ (s k).dt = dt ∧ (s k).objDot = objDot ∧
      (∀ i < dim, 0 < (s k).dimWeight.get i) ∧ (s k).alphaDBegin = b ∧ (s k).weight = w ∧
      (s k).phi.size = dim := by
    intro k
    induction k with
    | zero => intro _; exact_mod_cast h0
    | succ k ih =>
      intro hk'
      obtain ⟨i1, i2, i3, i4, i5, i6, i7, i8⟩ := ih (by omega)
      obtain ⟨-, -, -, -, -, ⟨-, u1⟩, u2, u3, u4, u5, u6, u7, u8⟩ := targetObj_update_ok (hs k (by omega)).1
      exact ⟨by rw [u2, i1]; push_cast; ring, by rw [u3, i2], by rw [u4, i3], by rw [u5, i4],
        by rw [u6]; exact i5, by rw [u7, i6], by rw [u8, i7], by rw [u1, i8]⟩
  obtain ⟨i1, i2, i3, i4, i5, i6, i7, i8⟩ := key k hk.le
  obtain ⟨g1, g2, g3⟩ := hs k hk
  have hu := targetObj_update_ok g1
  have hdur : (s k).duration = ((n : K) - k) * dt := by
    unfold TargetObj.duration
    rw [i1, i2, i3]
    push_cast
    rfl
  have hrows : (hl k).jac.rows = dim := by rw [← hu.2.2.2.2.2.1.1, hu.2.2.2.2.2.1.2, i8]
  rw [hdur] at hu
  refine ⟨hu.1, ?_⟩
  have hlsq := (C45_objective g1).1
  rw [i6, i7] at hlsq
  obtain ⟨z, hz⟩ := g2 (s (k + 1)).phi.get
  rw [C43_minimiser_unique hlsq hw (by rw [hrows]; exact i5) hz (g3 z) i (by omega), hu.2.1 i hi, i4, ho]
  rfl

theorem targetObj_psi_size {dim : ℕ} {hl : HL K} {s s' : TargetObj K}
    (h : s.update dim hl = .ok s') : s'.psi.size = s.psi.size := by
  unfold TargetObj.update at h
  obtain ⟨m00, -, h⟩ := Out.bind_eq_ok.1 h
  obtain ⟨m01, -, h⟩ := Out.bind_eq_ok.1 h
  obtain ⟨m10, -, h⟩ := Out.bind_eq_ok.1 h
  obtain ⟨m11, -, h⟩ := Out.bind_eq_ok.1 h
  obtain ⟨pp, h4, h⟩ := Out.bind_eq_ok.1 h
  obtain ⟨preQ, -, h⟩ := Out.bind_eq_ok.1 h
  obtain ⟨Q, -, h⟩ := Out.bind_eq_ok.1 h
  obtain ⟨sm, -, h⟩ := Out.bind_eq_ok.1 h
  obtain ⟨preC, -, h⟩ := Out.bind_eq_ok.1 h
  obtain ⟨C, -, h⟩ := Out.bind_eq_ok.1 h
  obtain rfl := Out.ok.inj h
  refine forRange_ok_inv (I := fun _ (p : Vec K × Vec K) => p.2.size = s.psi.size) rfl ?_ h4
  rintro i _ p p' ih hp
  unfold TargetObj.dimStep at hp
  obtain ⟨e, -, hp⟩ := Out.bind_eq_ok.1 hp
  obtain ⟨v, -, hp⟩ := Out.bind_eq_ok.1 hp
  obtain ⟨o, -, hp⟩ := Out.bind_eq_ok.1 hp
  obtain ⟨f, -, hp⟩ := Out.bind_eq_ok.1 hp
  obtain ⟨g, hg, hp⟩ := Out.bind_eq_ok.1 hp
  rw [← Out.ok.inj hp, ← ih]
  unfold Vec.set at hg
  split_ifs at hg
  rw [← Out.ok.inj hg]

/-- Three periods are enough, from anywhere. -/
theorem aim_three {dt e0 v0 o e1 v1 e2 v2 e3 v3 : K} (h : dt ≠ 0)
    (he1 : e1 = e0 - (v0 * dt + aim (3 * dt) e0 v0 o * dt ^ 2 / 2)) (hv1 : v1 = v0 + aim (3 * dt) e0 v0 o * dt)
    (he2 : e2 = e1 - (v1 * dt + aim (2 * dt) e1 v1 o * dt ^ 2 / 2)) (hv2 : v2 = v1 + aim (2 * dt) e1 v1 o * dt)
    (he3 : e3 = e2 - (v2 * dt + aim (1 * dt) e2 v2 o * dt ^ 2 / 2)) (hv3 : v3 = v2 + aim (1 * dt) e2 v2 o * dt) :
    e3 = 0 ∧ v3 = o := by
  have a1 : aim (3 * dt) e0 v0 o * dt ^ 2 = 2 / 3 * (e0 - 3 * dt * v0) - 2 / 3 * (o - v0) * dt := by
    unfold aim
    field_simp
    ring
  have a1' : aim (3 * dt) e0 v0 o * dt = (2 / 3 * (e0 - 3 * dt * v0) - 2 / 3 * (o - v0) * dt) / dt := by
    rw [← a1]
    field_simp
  have a2 : aim (2 * dt) e1 v1 o * dt ^ 2 = 3 / 2 * (e1 - 2 * dt * v1) - (o - v1) * dt := by
    unfold aim
    field_simp
    ring
  have a2' : aim (2 * dt) e1 v1 o * dt = (3 / 2 * (e1 - 2 * dt * v1) - (o - v1) * dt) / dt := by
    rw [← a2]
    field_simp
  have a3 : aim (1 * dt) e2 v2 o * dt ^ 2 = 6 * (e2 - dt * v2) - 2 * (o - v2) * dt := by
    unfold aim
    field_simp
    ring
  have a3' : aim (1 * dt) e2 v2 o * dt = (6 * (e2 - dt * v2) - 2 * (o - v2) * dt) / dt := by
    rw [← a3]
    field_simp
  rw [a1] at he1
  rw [a1'] at hv1
  rw [a2] at he2
  rw [a2'] at hv2
  rw [a3] at he3
  rw [a3'] at hv3
  subst he1 hv1 he2 hv2 he3 hv3
  constructor
  · field_simp
    ring
  · field_simp
    ring

/-- With at least three periods, the task arrives exactly: after the last period the error is zero and the
speed is the one asked for. -/
theorem C69_arrives_partial {dim n : ℕ} {dt : K} {obj : ℕ → K} {b : ℕ} {hl : ℕ → HL K} {y : ℕ → ℕ → K}
    (L : TargetLoop dim n dt obj b hl y) (hn : 3 ≤ n) {i : ℕ} (hi : i < dim)
    (hold : ∀ k < n, HeldPeriod dt b i (hl k) (hl (k + 1)) (y k)) :
    (hl n).eval.get i = 0 ∧ (hl n).speed.get i = obj i := by
  obtain ⟨m, rfl⟩ : ∃ m, n = m + 3 := ⟨n - 3, by omega⟩
  have p0 := targetLoop_period L (k := m) (by omega) hi
  have p1 := targetLoop_period L (k := m + 1) (by omega) hi
  have p2 := targetLoop_period L (k := m + 2) (by omega) hi
  have h0 := hold m (by omega)
  have h1 := hold (m + 1) (by omega)
  have h2 := hold (m + 2) (by omega)
  unfold HeldPeriod at h0 h1 h2
  dsimp only at h0 h1 h2
  rw [p0.2, show ((m + 3 : ℕ) : K) - (m : ℕ) = 3 by push_cast; ring] at h0
  rw [p1.2, show ((m + 3 : ℕ) : K) - ((m + 1 : ℕ) : K) = 2 by push_cast; ring] at h1
  rw [p2.2, show ((m + 3 : ℕ) : K) - ((m + 2 : ℕ) : K) = 1 by push_cast; ring] at h2
  have hdt : dt ≠ 0 := fun h => p2.1 (by rw [h, mul_zero])
  exact aim_three hdt h0.1 h0.2 h1.1 h1.2 h2.1 h2.2

/-- The whole way, whatever the number of periods: the error and the speed after each period are those of
the law "accelerate by `6 (e - d v) / d² - 2 (o - v) / d`" with `d` the remaining time. -/
theorem C69_law {dim n : ℕ} {dt : K} {obj : ℕ → K} {b : ℕ} {hl : ℕ → HL K} {y : ℕ → ℕ → K}
    (L : TargetLoop dim n dt obj b hl y) {i : ℕ} (hi : i < dim) {k : ℕ} (hk : k < n) :
    let d := ((n : K) - k) * dt
    rowAt (hl k).jac b (y k) i + (hl k).normalAcc.get i
      = (6 * ((hl k).eval.get i - d * (hl k).speed.get i) - 2 * d * (obj i - (hl k).speed.get i)) / d ^ 2 := by
  obtain ⟨h, e⟩ := targetLoop_period L hk hi
  intro d
  rw [e]
  unfold aim
  change d ≠ 0 at h
  change 6 / d ^ 2 * _ + 2 / -d * _ = _
  field_simp
  ring

end

namespace TargetLoopEx

/-- One robot with one slider. -/
def mb : MultiBody ℚ := ⟨[⟨"slider", 1, none⟩], 1, [-1], [0]⟩

/-- A task on the slider: error `e`, speed `v`. -/
def val (e v : ℚ) : HL ℚ := ⟨Mat.ofRows 1 [[1]], Vec.ofList [e], Vec.ofList [v], Vec.ofList [0]⟩

def sd : SolverData ℚ := ⟨[1], [0], [], [], 1, 0, 0, 0, 1, [], [], [], [], []⟩

/-- Where the slider is after each period, from rest at distance `e0`, with the acceleration aimed at. -/
def walk (n : ℕ) (o e0 : ℚ) : ℕ → ℚ × ℚ
  | 0 => (e0, 0)
  | k + 1 =>
    let p := walk n o e0 k
    let acc := aim (((n : ℚ) - k) * 1) p.1 p.2 o
    (p.1 - (p.2 + acc / 2), p.2 + acc)

def vals (n : ℕ) (o e0 : ℚ) (k : ℕ) : HL ℚ := val (walk n o e0 k).1 (walk n o e0 k).2

/-- The task after `k` updates. -/
def states (n : ℕ) (o e0 : ℚ) (a : TargetObj ℚ) : ℕ → TargetObj ℚ
  | 0 => a
  | k + 1 => match (states n o e0 a k).update 1 (vals n o e0 k) with
    | .ok a' => a'
    | _ => a

/-- A loop that walks, for any number of periods. -/
theorem walk_loop (n : ℕ) (o e0 : ℚ) :
    TargetLoop 1 n 1 (Vec.ofList [o]).get 0 (vals n o e0)
      (fun k _ => aim (((n : ℚ) - k) * 1) (walk n o e0 k).1 (walk n o e0 k).2 o) ∧
    ∀ k < n, HeldPeriod 1 0 0 (vals n o e0 k) (vals n o e0 (k + 1))
      (fun _ => aim (((n : ℚ) - k) * 1) (walk n o e0 k).1 (walk n o e0 k).2 o) := by
  constructor
  · have hround : ∀ r : ℚ, fdiv (n : ℚ) 1 = .ok r → (Out.ok (round r) : Out ℤ) = .ok (n : ℤ) := by
      intro r hr
      rw [fdiv_ok_eq] at hr
      obtain ⟨-, rfl⟩ := hr
      rw [div_one, round_natCast]
    let a : TargetObj ℚ := ⟨2, 0, n, 1, Vec.ofList [o], Vec.const 1 1, 0, 0, ⟨1, fun _ => 7⟩, ⟨1, fun _ => 7⟩,
      ⟨1, 1, fun _ _ => 7⟩, ⟨1, fun _ => 7⟩⟩
    have inv : ∀ k ≤ n, ((states n o e0 a k).iter = k ∧ (states n o e0 a k).nrIter = n ∧
        (states n o e0 a k).dt = 1 ∧ (states n o e0 a k).objDot = Vec.ofList [o] ∧
        (states n o e0 a k).dimWeight = Vec.const 1 1 ∧ (states n o e0 a k).phi.size = 1 ∧
        (states n o e0 a k).psi.size = 1 ∧ (states n o e0 a k).alphaDBegin = 0 ∧
        (states n o e0 a k).weight = 2) ∧
        (k < n → (states n o e0 a k).update 1 (vals n o e0 k) = .ok (states n o e0 a (k + 1))) := by
      intro k
      have go : ∀ k, k < n → ((states n o e0 a k).iter = k ∧ (states n o e0 a k).nrIter = n ∧
        (states n o e0 a k).dt = 1 ∧ (states n o e0 a k).objDot = Vec.ofList [o] ∧
        (states n o e0 a k).dimWeight = Vec.const 1 1 ∧ (states n o e0 a k).phi.size = 1 ∧
        (states n o e0 a k).psi.size = 1 ∧ (states n o e0 a k).alphaDBegin = 0 ∧
        (states n o e0 a k).weight = 2) →
        (states n o e0 a k).update 1 (vals n o e0 k) = .ok (states n o e0 a (k + 1)) := by
        rintro k hk ⟨i1, i2, i3, i4, i5, i6, i7, i8, i9⟩
        obtain ⟨a', ha'⟩ := C45_defined (dim := 1) (hl := vals n o e0 k) (s := states n o e0 a k)
          (by rw [i1, i2]; exact_mod_cast hk.ne) (by rw [i3]; norm_num) rfl rfl rfl rfl
          (by rw [i4]; rfl) (by rw [i5]; rfl) i6 i7
        have : states n o e0 a (k + 1) = a' := by rw [states, ha']
        rw [this, ha']
      induction k with
      | zero =>
        intro _
        exact ⟨⟨rfl, rfl, rfl, rfl, rfl, rfl, rfl, rfl, rfl⟩,
          fun h => go 0 h ⟨rfl, rfl, rfl, rfl, rfl, rfl, rfl, rfl, rfl⟩⟩
      | succ k ih =>
        intro hk
        obtain ⟨⟨i1, i2, i3, i4, i5, i6, i7, i8, i9⟩, hu⟩ := ih (by omega)
        have hu := hu (by omega)
        obtain ⟨-, -, -, -, -, ⟨-, u1⟩, u2, u3, u4, u5, u6, u7, u8⟩ := targetObj_update_ok hu
        have hpsi := targetObj_psi_size hu
        refine (fun I => ⟨I, fun h => go (k + 1) h I⟩) ?_
        exact ⟨by rw [u2, i1]; push_cast; ring, by rw [u3, i2], by rw [u4, i3], by rw [u5, i4],
          by rw [u6, i5], by rw [u1, i6], by rw [hpsi, i7], by rw [u7, i8], by rw [u8, i9]⟩
    refine ⟨fun r => .ok (round r), [mb], 0, n, 2, Vec.ofList [o], none, fun _ _ => 7, sd, a,
      states n o e0 a, hround, rfl, by norm_num, by simp, rfl, ?_, rfl, fun k hk => ?_⟩
    · have : fdiv (n : ℚ) 1 = .ok (n : ℚ) := by rw [fdiv_ok_eq]; simp
      simp [TargetObj.make, vecAt, TargetObj.setDuration, this, mb, MultiBody.nrDof, a]
    · obtain ⟨⟨i1, i2, i3, i4, i5, i6, i7, i8, i9⟩, hu⟩ := inv k hk.le
      have hu := hu hk
      refine ⟨hu, fun tgt => ⟨fun _ => tgt 0, ?_⟩, fun z => ?_⟩
      · intro i hi
        have : i = 0 := by simp [vals, val, Mat.ofRows] at hi; omega
        subst this
        simp [rowAt, vals, val, Mat.ofRows, Vec.ofList]
      · have hl := (C45_objective hu).1
        refine C43_minimiser hl (by rw [i9]; norm_num) (fun i _ => by rw [i5]; simp [Vec.const]) ?_ z
        intro i hi
        have : i = 0 := by simp [vals, val, Mat.ofRows] at hi; omega
        subst this
        have hd : (states n o e0 a k).duration = ((n : ℚ) - k) * 1 := by
          unfold TargetObj.duration
          rw [i1, i2, i3]
          push_cast
          rfl
        rw [(targetObj_update_ok hu).2.1 0 (by norm_num), hd, i4]
        simp [rowAt, vals, val, Mat.ofRows, Vec.ofList, aim]
  · intro k hk
    refine ⟨?_, ?_⟩
    · simp [vals, val, walk, rowAt, Mat.ofRows, Vec.ofList]
    · simp [vals, val, walk, rowAt, Mat.ofRows, Vec.ofList]

/-- From rest at distance 5 with 10 periods: the slider is there at the end, at the speed 2 asked for, and
it is under way in between. -/
example : (walk 10 2 5 10) = (0, 2) ∧ (walk 10 2 5 1).1 ≠ 5 := by
  obtain ⟨L, h⟩ := walk_loop 10 2 5
  have := C69_arrives_partial L (by norm_num) (i := 0) (by norm_num) h
  refine ⟨Prod.ext this.1 this.2, ?_⟩
  norm_num [walk, aim]

/-- The claim is false for a duration of one or two periods: from rest at distance 1 the slider ends two
beyond, respectively one before the target, and moving. -/
theorem C69_counterexample : ∃ (hl hl2 : ℕ → HL ℚ) (y y2 : ℕ → ℕ → ℚ),
    (TargetLoop 1 1 1 (Vec.ofList [0]).get 0 hl y ∧
      (∀ k < 1, HeldPeriod 1 0 0 (hl k) (hl (k + 1)) (y k)) ∧ (hl 0).eval.get 0 = 1 ∧
      (hl 1).eval.get 0 = -2 ∧ (hl 1).speed.get 0 = 6) ∧
    (TargetLoop 1 2 1 (Vec.ofList [0]).get 0 hl2 y2 ∧
      (∀ k < 2, HeldPeriod 1 0 0 (hl2 k) (hl2 (k + 1)) (y2 k)) ∧ (hl2 0).eval.get 0 = 1 ∧
      (hl2 2).eval.get 0 = 1 ∧ (hl2 2).speed.get 0 = -3) := by
  obtain ⟨L, h⟩ := walk_loop 1 0 1
  obtain ⟨L2, h2⟩ := walk_loop 2 0 1
  refine ⟨_, _, _, _, ⟨L, h, ?_, ?_, ?_⟩, L2, h2, ?_, ?_, ?_⟩ <;>
    norm_num [vals, val, walk, aim, Vec.ofList]

end TargetLoopEx

end Verif
