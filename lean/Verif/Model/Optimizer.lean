import Verif.Model.Matrix
import Mathlib.Algebra.Field.Basic
import Mathlib.Algebra.Order.Ring.Defs
import Mathlib.Order.Defs.LinearOrder
import Mathlib.Algebra.Field.Rat

/-!
# Model of src/Optimizer.cpp

Scalars are any type with the operations used (`float` in the code).  Over a field with a linear order rounding, NaN and
infinities are left out and decimal literals are exact; over `F32` (Model/Float32) they are rounded.  `sq` is the square root and `ab` what `::abs` denotes,
as in Model/Loss (`Matrix::cwiseAbs`, Matrix.h:416-424).

The members of all derived classes are in one record: `v` is `_v` (Momentum, MomentumNg, Nesterov, Adam, AdamW,
Amsgrad, Nadam), `_cache` (Adagrad, RMSProp), `_u` (Adamax), `_mu` (RPROP); `m` is `_m`, `_v_prev` (Nesterov),
`_oldgradw` (RPROP); `vh` is `_v_hat` (Amsgrad).
-/

namespace BeeDNN

variable {α : Type}

/-- The classes of Optimizer.cpp:49-851. -/
inductive OptKind
  | none | step | sgd | momentum | momentumNg | nesterov | adagrad | rmsprop | adam | adamW | amsgrad | nadam
  | adamax | rpropm | irpropm
  deriving DecidableEq, Repr

/-- Optimizer.h:38-40 and the members of the derived classes. -/
structure Opt (α : Type) where
  kind : OptKind
  lr : α
  mom : α
  decay : α
  beta1 : α
  beta2 : α
  lambda : α
  p1 : α
  p2 : α
  v : Mat α
  m : Mat α
  vh : Mat α

section
variable [Zero α] [One α] [Add α] [Sub α] [Mul α] [Div α] [Neg α] [NatCast α] [OfScientific α] [LT α]
  [DecidableRel (α := α) (· < ·)] [DecidableEq α]

/-- Constructors: Optimizer.cpp:18-23 and 398-404, 463-470, 528-532, 584-591, 652-658. -/
def Opt.new (k : OptKind) : Opt α :=
  { kind := k
    lr := match k with
      | .nadam => 0.001
      | .adamax => 0.002
      | _ => -1
    mom := -1
    decay := -1
    beta1 := 0.9
    beta2 := 0.999
    lambda := 0.000001
    p1 := 0
    p2 := 0
    v := ⟨0, 0, []⟩
    m := ⟨0, 0, []⟩
    vh := ⟨0, 0, []⟩ }

/-- Default learning rates in the `init` functions (lines 101, 138, 178, 227, 275, 321, 370, 423, 489, 551, 610,
677); `None` and the RPROP classes have none. -/
def Opt.defaultLr : OptKind → Option α
  | .none | .rpropm | .irpropm => Option.none
  | .step => some 0.1
  | .sgd => some 0.01
  | .momentum => some 0.01
  | .momentumNg => some 0.1
  | .nesterov => some 0.01
  | .adagrad => some 0.001
  | .rmsprop => some 0.01
  | .adam => some 0.001
  | .adamW => some 0.001
  | .amsgrad => some 0.01
  | .nadam => some 0.002
  | .adamax => some 0.001

/-- `if (x == -1.f) x = default;` -/
def orDefault (x : α) (d : Option α) : α :=
  match d with
  | some d => if x = -1 then d else x
  | none => x

/-- The `init` functions (lines 68, 99, 136, 176-182, 225-231, 273-279, 319-325, 368-374, 421-431, 487-497,
549-555, 608-617, 675-683, 731-735, 801-805). -/
def Opt.init (g : Nat → α) (o : Opt α) : Opt α :=
  let o := { o with lr := orDefault o.lr (Opt.defaultLr o.kind) }
  let v0 := o.v.resize g 0 0
  let m0 := o.m.resize g 0 0
  match o.kind with
  | .none | .step | .sgd => o
  | .momentum | .momentumNg | .nesterov => { o with mom := orDefault o.mom (some 0.9), v := v0 }
  | .adagrad => { o with v := v0 }
  | .rmsprop => { o with decay := orDefault o.decay (some 0.99), v := v0 }
  | .adam | .adamW | .nadam => { o with m := m0, v := v0, p1 := o.beta1, p2 := o.beta2 }
  | .amsgrad => { o with v := v0 }
  | .adamax => { o with m := m0, v := v0, p1 := o.beta1 }
  | .rpropm | .irpropm => { o with m := m0, v := v0 }

/-- Optimizer.cpp:28-32 `set_learningrate`. -/
def Opt.setLearningRate (g : Nat → α) (o : Opt α) (lr : α) : Opt α := Opt.init g { o with lr := lr }

/-- Optimizer.cpp:39-46 `set_params`. -/
def Opt.setParams (g : Nat → α) (o : Opt α) (lr decay mom : α) : Opt α :=
  Opt.init g { o with lr := lr, decay := decay, mom := mom }

/-- The `clone` functions.  iRPROP- clones to RPROP- (line 793). -/
def Opt.clone (o : Opt α) : Opt α :=
  match o.kind with
  | .none => Opt.new .none
  | .momentum => { (Opt.new .momentum : Opt α) with lr := o.lr, mom := o.mom }
  | .momentumNg => { (Opt.new .momentumNg : Opt α) with lr := o.lr, mom := o.mom }
  | .nesterov => { (Opt.new .nesterov : Opt α) with lr := o.lr, mom := o.mom }
  | .rmsprop => { (Opt.new .rmsprop : Opt α) with lr := o.lr, decay := o.decay }
  | .rpropm => Opt.new .rpropm
  | .irpropm => Opt.new .rpropm
  | k => { (Opt.new k : Opt α) with lr := o.lr }

/-- Matrix.h:549-557 `cwiseMax(T)`: `std::max(a,b)` is `b` if `a < b`, else `a`. -/
def Mat.cwiseMaxS (m : Mat α) (b : α) : Out (Mat α) := m.cwise (fun x => if x < b then b else x)

/-- Matrix.h:559-570 `cwiseMax(const Matrix&)`. -/
def Mat.cwiseMaxM (m a : Mat α) : Out (Mat α) := Mat.cwise2 (fun x y => if x < y then y else x) m a

/-- Matrix.h:403-414 `cwiseQuotient`. -/
def Mat.cwiseQuotient (m a : Mat α) : Out (Mat α) := Mat.cwise2 (· / ·) m a

/-- Matrix.h:436-444 `cwiseAbs2`. -/
def Mat.cwiseAbs2 (m : Mat α) : Out (Mat α) := m.cwise (fun x => x * x)

/-- Matrix.h:426-434 `cwiseSign`: `copysign(1.f, x)`. -/
def Mat.cwiseSign (m : Mat α) : Out (Mat α) := m.cwise (fun x => if x < 0 then -1 else 1)

/-- `setZero` of a state matrix the first time it is used. -/
def zeroIf (g : Nat → α) (c : Bool) (m dw : Mat α) : Out (Mat α) :=
  if c then m.setConstantRC g dw.rows dw.cols 0 else .ok m

/-- Lines 239-240: MomentumNg starts from the first gradient. -/
def copyIf (g : Nat → α) (c : Bool) (m dw : Mat α) : Out (Mat α) := if c then m.assign g dw else .ok m

/-- Lines 387, 448-449 and the like: `m*a + x*b`. -/
def lerpM (g : Nat → α) (m x : Mat α) (a b : α) : Out (Mat α) := do
  let s ← m.scale a
  let t ← x.scale b
  let u ← s.add t
  m.assign g u

/-- Lines 340, 388, 450 and the like: `m.cwiseQuotient(r.cwiseSqrt().cwiseMax(1.e-8f))*f`. -/
def ratio (sq : α → α) (m r : Mat α) (f : α) : Out (Mat α) := do
  let s ← r.cwise sq
  let s ← s.cwiseMaxS 1e-8
  let q ← m.cwiseQuotient s
  q.scale f

/-- One cell of the RPROP loops: new `_mu(i)` from `f = dw*_oldgradw`. -/
def rpropMu (f mu : α) : α :=
  if f < 0 then
    let mu := mu * 0.5
    if mu < 1e-6 then 1e-6 else mu
  else if 0 < f then
    let mu := mu * 1.2
    if 50 < mu then 50 else mu
  else mu

/-- Lines 745-747 and 815-817: first use of the RPROP state. -/
def rpropFirst (g : Nat → α) (o : Opt α) (dw : Mat α) : Out (Mat α × Mat α) :=
  if o.m.size = 0 then do
    let mu ← (o.v.resize g dw.rows dw.cols).setConstant 0.0125
    let old ← o.m.assign g dw
    return (mu, old)
  else .ok (o.v, o.m)

/-- Lines 768-771: the weight moves by `mu` against the sign of `d`. -/
def rpropMove (w d mu : α) : α := if 0 < d then w - mu else if d < 0 then w + mu else w

/-- The `optimize` functions. -/
def Opt.optimize (g : Nat → α) (sq ab : α → α) (o : Opt α) (w dw : Mat α) : Out (Opt α × Mat α) :=
  match o.kind with
  -- lines 71-75
  | .none => .ok (o, w)
  -- lines 104-112
  | .step => do
    check (w.rows = dw.rows)
    check (w.cols = dw.cols)
    let s ← dw.cwiseSign
    let s ← s.scale o.lr
    let w ← w.sub s
    return (o, w)
  -- lines 141-149
  | .sgd => do
    check (w.rows = dw.rows)
    check (w.cols = dw.cols)
    let s ← dw.scale o.lr
    let w ← w.sub s
    return (o, w)
  -- lines 184-195
  | .momentum => do
    check (w.rows = dw.rows)
    check (w.cols = dw.cols)
    let v ← zeroIf g (o.v.size = 0) o.v w
    let v ← lerpM g v dw o.mom o.lr
    let w ← w.sub v
    return ({ o with v := v }, w)
  -- lines 233-244
  | .momentumNg => do
    check (w.rows = dw.rows)
    check (w.cols = dw.cols)
    let v ← copyIf g (o.v.size = 0) o.v dw
    let v ← lerpM g v dw o.mom (1 - o.mom)
    let s ← v.scale o.lr
    let w ← w.sub s
    return ({ o with v := v }, w)
  -- lines 281-293
  | .nesterov => do
    check (w.rows = dw.rows)
    check (w.cols = dw.cols)
    let v ← zeroIf g (o.v.size = 0) o.v w
    let prev ← o.m.assign g v
    let a ← v.scale o.mom
    let b ← dw.scale o.lr
    let t ← a.sub b
    let v ← v.assign g t
    let a ← prev.neg
    let a ← a.scale o.mom
    let b ← v.scale (1 + o.mom)
    let t ← a.add b
    let w ← w.add t
    return ({ o with v := v, m := prev }, w)
  -- lines 327-341
  | .adagrad => do
    check (w.rows = dw.rows)
    check (w.cols = dw.cols)
    let v ← zeroIf g (o.v.size = 0) o.v dw
    let d2 ← dw.cwiseAbs2
    let v ← v.add d2
    let t ← ratio sq dw v (-o.lr)
    let w ← w.add t
    return ({ o with v := v }, w)
  -- lines 376-389
  | .rmsprop => do
    check (w.rows = dw.rows)
    check (w.cols = dw.cols)
    let v ← zeroIf g (o.v.size = 0) o.v dw
    let d2 ← dw.cwiseAbs2
    let v ← lerpM g v d2 o.decay (1 - o.decay)
    let t ← ratio sq dw v (-o.lr)
    let w ← w.add t
    return ({ o with v := v }, w)
  -- lines 433-454
  | .adam => do
    check (w.rows = dw.rows)
    check (w.cols = dw.cols)
    let m ← zeroIf g (o.v.size = 0) o.m dw
    let v ← zeroIf g (o.v.size = 0) o.v dw
    let invBeta2 := 1 / (1 - o.p2)
    let m ← lerpM g m dw o.beta1 (1 - o.beta1)
    let d2 ← dw.cwiseAbs2
    let v ← lerpM g v d2 o.beta2 (1 - o.beta2)
    let r ← v.scale invBeta2
    let t ← ratio sq m r (o.lr / (1 - o.p1))
    let w ← w.sub t
    return ({ o with m := m, v := v, p1 := o.p1 * o.beta1, p2 := o.p2 * o.beta2 }, w)
  -- lines 499-519
  | .adamW => do
    check (w.rows = dw.rows)
    check (w.cols = dw.cols)
    let m ← zeroIf g (o.v.size = 0) o.m dw
    let v ← zeroIf g (o.v.size = 0) o.v dw
    let invBeta2 := 1 / (1 - o.p2)
    let m ← lerpM g m dw o.beta1 (1 - o.beta1)
    let d2 ← dw.cwiseAbs2
    let v ← lerpM g v d2 o.beta2 (1 - o.beta2)
    let r ← v.scale invBeta2
    let t ← ratio sq m r (o.lr / (1 - o.p1))
    let s ← w.scale o.lambda
    let t ← t.add s
    let w ← w.sub t
    return ({ o with m := m, v := v, p1 := o.p1 * o.beta1, p2 := o.p2 * o.beta2 }, w)
  -- lines 557-575
  | .amsgrad => do
    check (w.rows = dw.rows)
    check (w.cols = dw.cols)
    let v ← zeroIf g (o.v.size = 0) o.v dw
    let vh ← zeroIf g (o.v.size = 0) o.vh dw
    let m ← zeroIf g (o.v.size = 0) o.m dw
    let m ← lerpM g m dw o.beta1 (1 - o.beta1)
    let d2 ← dw.cwiseAbs2
    let v ← lerpM g v d2 o.beta2 (1 - o.beta2)
    let t ← v.cwiseMaxM vh
    let vh ← vh.assign g t
    let t ← ratio sq m vh o.lr
    let w ← w.sub t
    return ({ o with m := m, v := v, vh := vh }, w)
  -- lines 619-642 (no asserts)
  | .nadam => do
    let m ← zeroIf g (o.v.size = 0) o.m dw
    let v ← zeroIf g (o.v.size = 0) o.v dw
    let m ← lerpM g m dw o.beta1 (1 - o.beta1)
    let d2 ← dw.cwiseAbs2
    let v ← lerpM g v d2 o.beta2 (1 - o.beta2)
    let a ← m.scale o.beta1
    let b ← dw.scale (1 - o.beta1)
    let b ← b.divScalar (1 - o.p1)
    let a ← a.add b
    let t ← ratio sq a v (-o.lr)
    let w ← w.add t
    return ({ o with m := m, v := v, p1 := o.p1 * o.beta1, p2 := o.p2 * o.beta2 }, w)
  -- lines 685-704 (no asserts)
  | .adamax => do
    let m ← zeroIf g (o.v.size = 0) o.m dw
    let v ← zeroIf g (o.v.size = 0) o.v dw
    let m ← lerpM g m dw o.beta1 (1 - o.beta1)
    let a ← v.scale o.beta2
    let b ← dw.cwise ab
    let t ← a.cwiseMaxM b
    let v ← v.assign g t
    let s ← v.cwiseMaxS 1e-8
    let q ← m.cwiseQuotient s
    let t ← q.scale (-o.lr / (1 - o.p1))
    let w ← w.add t
    return ({ o with m := m, v := v, p1 := o.p1 * o.beta1 }, w)
  -- lines 737-775
  | .rpropm => do
    check (w.rows = dw.rows)
    check (w.cols = dw.cols)
    let st ← rpropFirst g o dw
    let st2 ← forN st.1.size (fun i (s : Mat α × Mat α) => do
      let d ← dw.getI i
      let od ← st.2.getI i
      let mu ← s.1.getI i
      let mu := rpropMu (d * od) mu
      let muM ← s.1.setI i mu
      let x ← s.2.getI i
      let wM ← s.2.setI i (rpropMove x d mu)
      return (muM, wM)) (st.1, w)
    let old ← st.2.assign g dw
    return ({ o with v := st2.1, m := old }, st2.2)
  -- lines 807-848
  | .irpropm => do
    check (w.rows = dw.rows)
    check (w.cols = dw.cols)
    let st ← rpropFirst g o dw
    let st2 ← forN st.1.size (fun i (s : Mat α × Mat α × Mat α) => do
      let d ← dw.getI i
      let od ← s.2.1.getI i
      let mu ← s.1.getI i
      let f := d * od
      let mu := rpropMu f mu
      let muM ← s.1.setI i mu
      let d' := if f < 0 then 0 else d
      let x ← s.2.2.getI i
      let wM ← s.2.2.setI i (rpropMove x d' mu)
      let oldM ← s.2.1.setI i d'
      return (muM, oldM, wM)) (st.1, st.2, w)
    return ({ o with v := st2.1, m := st2.2.1 }, st2.2.2)

/-- Optimizer.cpp:854-902 `create_optimizer` (`none`: null pointer). -/
def createOptimizer (s : String) : Option OptKind :=
  if s = "None" then some .none
  else if s = "Adagrad" then some .adagrad
  else if s = "Adam" then some .adam
  else if s = "AdamW" then some .adamW
  else if s = "Amsgrad" then some .amsgrad
  else if s = "Adamax" then some .adamax
  else if s = "Momentum" then some .momentum
  else if s = "MomentumNg" then some .momentumNg
  else if s = "Nesterov" then some .nesterov
  else if s = "Nadam" then some .nadam
  else if s = "RMSProp" then some .rmsprop
  else if s = "RPROP-" then some .rpropm
  else if s = "iRPROP-" then some .irpropm
  else if s = "SGD" then some .sgd
  else if s = "Step" then some .step
  else Option.none

/-- The `name` functions. -/
def OptKind.name : OptKind → String
  | .none => "None"
  | .step => "Step"
  | .sgd => "SGD"
  | .momentum => "Momentum"
  | .momentumNg => "MomentumNg"
  | .nesterov => "Nesterov"
  | .adagrad => "Adagrad"
  | .rmsprop => "RMSProp"
  | .adam => "Adam"
  | .adamW => "AdamW"
  | .amsgrad => "Amsgrad"
  | .nadam => "Nadam"
  | .adamax => "Adamax"
  | .rpropm => "RPROP-"
  | .irpropm => "iRPROP-"

/-- Optimizer.cpp:904-923 `list_optimizers_available`. -/
def optimizerNames : List String :=
  ["None", "Adagrad", "Adam", "AdamW", "Amsgrad", "Nadam", "Adamax", "Momentum", "MomentumNg", "Nesterov", "RMSProp",
    "RPROP-", "iRPROP-", "SGD", "Step"]

end

end BeeDNN
