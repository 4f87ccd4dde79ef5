import Verif.Model.PyLib
import Mathlib.Analysis.SpecialFunctions.Sqrt

/-!
# The Python library (python/beednn/Optimizer.py): optimizers

Simplifications: see `Model/PyLib`; a gradient array is not written to after it was handed over (all layers compute a new one), so the references that
`OptimizerMomentum`, `OptimizerMomentumNg` and `OptimizerRPROPm` keep to it are values here.  Members that a class does not have are never read.
-/

namespace BeeDNN

/-- The classes of Optimizer.py:17-200. -/
inductive PyOptKind
  | step | sgd | momentum | momentumNg | nesterov | rpropm | adam | adamW | adamax | nadam | amsgrad
  deriving DecidableEq, Repr

/-- The members of all classes; `v` is also `mu` and `m` is also `olddw` (RPROPm). -/
structure PyOpt where
  kind : PyOptKind
  init : Bool
  lr : ℝ
  momentum : ℝ
  beta1 : ℝ
  beta2 : ℝ
  epsilon : ℝ
  lambda : ℝ
  beta1Prod : ℝ
  beta2Prod : ℝ
  v : NpArr
  m : NpArr
  vHat : NpArr

/-- A new object: the class members in Optimizer.py (`lr` in lines 18, 24, 31, 44, 57, 95, 117, 140, 160, 185; RPROPm has none). -/
noncomputable def PyOpt.new (k : PyOptKind) : PyOpt :=
  { kind := k
    init := false
    lr := match k with
      | .momentumNg => 0.1
      | .adam => 0.001
      | _ => 0.01
    momentum := 0.9
    beta1 := 0.9
    beta2 := 0.999
    epsilon := 1e-8
    lambda := 0.000001
    beta1Prod := 0
    beta2Prod := 0
    v := ⟨0, 0, fun _ _ => 0⟩
    m := ⟨0, 0, fun _ _ => 0⟩
    vHat := ⟨0, 0, fun _ _ => 0⟩ }

/-- An elementwise operation on two arrays.  Simplified: arrays of other shapes, which numpy may repeat, raise an exception. -/
def npZip (f : ℝ → ℝ → ℝ) (a b : NpArr) : Out NpArr := do
  npCheck (a.rows = b.rows ∧ a.cols = b.cols)
  .ok { a with val := fun i j => f (a.val i j) (b.val i j) }

/-- `if not self.init:` Optimizer.py:35-37, 48-50, 61-63, 76-79, 100-105, 123-128, 145-149, 165-170, 190-194.  Simplified: members that a class does not
have are set too. -/
noncomputable def PyOpt.start (o : PyOpt) (w dw : NpArr) : PyOpt :=
  if o.init then o else
    { o with
      init := true
      v := match o.kind with
        | .momentum | .momentumNg => dw
        | .rpropm => w.map fun _ => 0.0125 * 1
        | .nesterov => w.map (0 * ·)
        | _ => dw.map (0 * ·)
      m := match o.kind with
        | .rpropm => dw
        | _ => dw.map (0 * ·)
      vHat := dw.map (0 * ·)
      beta1Prod := o.beta1
      beta2Prod := o.beta2 }

/-- `self.m*self.beta1+(1.-self.beta1)*dw`, lines 107, 130, 151, 172, 196. -/
def PyOpt.firstMoment (o : PyOpt) (dw : NpArr) : Out NpArr := npZip (fun m d => m * o.beta1 + (1 - o.beta1) * d) o.m dw

/-- `self.v*self.beta2+(1.-self.beta2)*(dw**2)`, lines 108, 131, 173, 197. -/
def PyOpt.secondMoment (o : PyOpt) (dw : NpArr) : Out NpArr := npZip (fun v d => v * o.beta2 + (1 - o.beta2) * d ^ 2) o.v dw

/-- The rest of the `optimize` functions: the object afterwards and the new weights. -/
noncomputable def PyOpt.update (o : PyOpt) (w dw : NpArr) : Out (PyOpt × NpArr) :=
  match o.kind with
  -- line 20
  | .step => do
    let w ← npZip (· - ·) w (dw.map fun d => npSign d * o.lr)
    .ok (o, w)
  -- line 26
  | .sgd => do
    let w ← npZip (· - ·) w (dw.map (· * o.lr))
    .ok (o, w)
  -- lines 39-40
  | .momentum => do
    let v ← npZip (fun v d => v * o.momentum + d * o.lr) o.v dw
    let w ← npZip (· - ·) w v
    .ok ({ o with v := v }, w)
  -- lines 52-53
  | .momentumNg => do
    let v ← npZip (fun v d => v * o.momentum + d * (1 - o.momentum)) o.v dw
    let w ← npZip (· - ·) w (v.map (· * o.lr))
    .ok ({ o with v := v }, w)
  -- lines 65-68
  | .nesterov => do
    let v ← npZip (fun v d => o.momentum * v - o.lr * d) o.v dw
    let s ← npZip (fun p v => -o.momentum * p + (1 + o.momentum) * v) o.v v
    let w ← npZip (· + ·) w s
    .ok ({ o with v := v }, w)
  -- lines 81-89
  | .rpropm => do
    let sg ← npZip (fun d p => npSign (d * p)) dw o.m
    let mu ← npZip (fun u s => if s < 0 then u * 0.5 else u) o.v sg
    let mu ← npZip (fun u s => if s > 0 then u * 1.2 else u) mu sg
    let mu := mu.map (max · 1e-6)
    let mu := mu.map (min · 50)
    let s ← npZip (fun u d => u * npSign d) mu dw
    let w ← npZip (· - ·) w s
    .ok ({ o with v := mu, m := dw }, w)
  -- lines 107-112
  | .adam => do
    let m ← o.firstMoment dw
    let v ← o.secondMoment dw
    let s ← npZip (fun m v => o.lr / (1 - o.beta1Prod) * m / (√(v / (1 - o.beta2Prod)) + o.epsilon)) m v
    let w ← npZip (· - ·) w s
    .ok ({ o with m := m, v := v, beta1Prod := o.beta1Prod * o.beta1, beta2Prod := o.beta2Prod * o.beta2 }, w)
  -- lines 130-135
  | .adamW => do
    let m ← o.firstMoment dw
    let v ← o.secondMoment dw
    let s ← npZip (fun m v => o.lr / (1 - o.beta1Prod) * m / (√(v / (1 - o.beta2Prod)) + o.epsilon)) m v
    let s ← npZip (fun s w => s + o.lambda * w) s w
    let w ← npZip (· - ·) w s
    .ok ({ o with m := m, v := v, beta1Prod := o.beta1Prod * o.beta1, beta2Prod := o.beta2Prod * o.beta2 }, w)
  -- lines 151-155
  | .adamax => do
    let m ← o.firstMoment dw
    let v ← npZip (fun v d => max (o.beta2 * v) |d| + o.epsilon) o.v dw
    let s ← npZip (fun m v => o.lr / (1 - o.beta1Prod) * m / v) m v
    let w ← npZip (· - ·) w s
    .ok ({ o with m := m, v := v, beta1Prod := o.beta1Prod * o.beta1 }, w)
  -- lines 172-180
  | .nadam => do
    let m ← o.firstMoment dw
    let v ← o.secondMoment dw
    let mHat ← npZip (fun m d => m / (1 - o.beta1Prod) + (1 - o.beta1) * d / (1 - o.beta1Prod)) m dw
    let s ← npZip (fun m v => o.lr * m / (√(v / (1 - o.beta2Prod)) + o.epsilon)) mHat v
    let w ← npZip (· - ·) w s
    .ok ({ o with m := m, v := v, beta1Prod := o.beta1Prod * o.beta1, beta2Prod := o.beta2Prod * o.beta2 }, w)
  -- lines 196-200
  | .amsgrad => do
    let m ← o.firstMoment dw
    let v ← o.secondMoment dw
    let vHat ← npZip max v o.vHat
    let s ← npZip (fun m v => o.lr * m / (√v + o.epsilon)) m vHat
    let w ← npZip (· - ·) w s
    .ok ({ o with m := m, v := v, vHat := vHat }, w)

/-- Is the update an assignment `w += ` or `w -= `, which writes to the array (lines 67, 109, 132, 153, 176, 199)? -/
def PyOptKind.inPlace : PyOptKind → Bool
  | .nesterov | .adam | .adamW | .adamax | .nadam | .amsgrad => true
  | _ => false

/-- `optimize(self,w,dw)`: the object afterwards, the array returned, and the arrays. -/
noncomputable def PyOpt.optimize (o : PyOpt) (w : Nat) (dw : NpArr) (h : NpStore) : Out (PyOpt × Nat × NpStore) := do
  let W ← h.load w
  let (o, W) ← (o.start W dw).update W dw
  if o.kind.inPlace then .ok (o, w, h.set w W) else .ok (o, h.length, h ++ [W])

/-- Optimizer.py:202-226 `create` (`none`: `None`). -/
def pyCreateOptimizer (s : String) : Option PyOptKind :=
  if s = "Step" then some .step
  else if s = "SGD" then some .sgd
  else if s = "Momentum" then some .momentum
  else if s = "MomentumNg" then some .momentumNg
  else if s = "Nesterov" then some .nesterov
  else if s = "RPROPm" then some .rpropm
  else if s = "Adam" then some .adam
  else if s = "AdamW" then some .adamW
  else if s = "Adamax" then some .adamax
  else if s = "Nadam" then some .nadam
  else if s = "Amsgrad" then some .amsgrad
  else none

end BeeDNN
