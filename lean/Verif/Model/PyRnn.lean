import Verif.Model.PyOptimizer

/-!
# The Python library (python/beednn): `LayerRNN` with its cell `RNNCellSimplestRNN`

The weights are those of the cell; `self.weight` of the layer is another variable.  Both are positions in the store of arrays (see Model/PyLib).  Simplified: the other arrays
are values, since no function writes to them while another variable refers to them; numpy would also repeat single columns in additions and assignments, but then the
assignment to the state or to the output of the frame fails.
-/

namespace BeeDNN
open Finset

/-- `a[:,lo:hi]`. -/
def NpArr.slice (a : NpArr) (lo hi : Nat) : NpArr := { rows := a.rows, cols := min hi a.cols - min lo a.cols, val := fun i j => a.val i (lo + j) }

/-- `a[:,lo:hi]=b`. -/
def NpArr.setSlice (a : NpArr) (lo hi : Nat) (b : NpArr) : Out NpArr := do
  npCheck (b.rows = a.rows ∧ b.cols = min hi a.cols - min lo a.cols)
  .ok { a with val := fun i j => if lo ≤ j ∧ j < hi then b.val i (j - lo) else a.val i j }

/-- `np.zeros((r,c))`. -/
def npZeros (r c : Nat) : NpArr := ⟨r, c, fun _ _ => 0⟩

/-- A `LayerRNN` object (Layer.py:597-610): sizes, `cell.weight`, `cell.dldw`, `weight`, `dldw`, `x`, `h`, `y` and `optimizer_Weight`; `none`: the attribute does not exist yet. -/
structure PyRnn where
  inF : Nat
  hS : Nat
  outF : Nat
  training : Bool := false
  cw : Nat
  cellDldw : NpArr := npZeros 0 0
  weight : Option Nat := none
  dldw : NpArr := npZeros 0 0
  x : Option NpArr := none
  h : Option NpArr := none
  y : Option NpArr := none
  opt : PyOpt

/-- An attribute, with an exception if it does not exist. -/
def pyAttr {α : Type} : Option α → Out α
  | some a => .ok a
  | none => .error .exception

namespace PyRnn

/-- Layer.py:578-582: the new state, which is the output too. -/
noncomputable def cellForward (hS : Nat) (W x : NpArr) (h : Option NpArr) : Out NpArr := do
  let h := h.getD (npZeros x.rows hS)
  let u ← npDot h W
  let s ← npZip (· + ·) x u
  .ok (s.map Real.tanh)

/-- One frame, Layer.py:622-632: `hf`, `self.h` and `self.y` afterwards. -/
noncomputable def frame (l : PyRnn) (W X : NpArr) (n : Nat) (s : Option NpArr × NpArr × NpArr) : Out (Option NpArr × NpArr × NpArr) := do
  let N := X.cols / l.inF
  let h ← cellForward l.hS W (X.slice (n * l.inF) ((n + 1) * l.inF)) s.1
  let H := if s.1.isNone then npZeros X.rows (l.hS * N) else s.2.1
  let Y := if s.1.isNone then npZeros X.rows (l.outF * N) else s.2.2
  let H ← H.setSlice (n * l.hS) ((n + 1) * l.hS) h
  let Y ← Y.setSlice (n * l.outF) ((n + 1) * l.outF) h
  .ok (some h, H, Y)

/-- Layer.py:612-634: what is returned, and the layer afterwards. -/
noncomputable def forward (l : PyRnn) (X : NpArr) (st : NpStore) : Out (NpArr × PyRnn) := do
  let W ← st.load l.cw
  let l := { l with cellDldw := W.map fun _ => 0 }
  let l := if l.training then { l with x := some X } else l
  npCheck (0 < l.inF)
  let (_, H, Y) ← forN (X.cols / l.inF) (l.frame W X) (none, npZeros 0 0, npZeros 0 0)
  if X.cols / l.inF = 0 then do
    let y ← pyAttr l.y
    .ok (y, l)
  else .ok (Y, { l with h := some H, y := some Y })

/-- Layer.py:584-592: the gradient for `x`, that for `h`, and `dldw` afterwards. -/
noncomputable def cellBackward (W dldw dldy dldh h : NpArr) : Out (NpArr × NpArr × NpArr) := do
  let o ← npZip (fun a b => (a + b) * 0.5) dldy dldh
  let u := o.map fun d => 1 - d * d
  let g ← npDot u.transpose h
  let dldw ← npZip (· + ·) dldw g
  let dh ← npDot u W.transpose
  .ok (u, dh, dldw)

/-- One frame, Layer.py:644-654: `dldhf`, `dldx` and `cell.dldw` afterwards. -/
noncomputable def frameBackward (l : PyRnn) (W H G : NpArr) (n : Nat) (s : Option NpArr × NpArr × NpArr) : Out (Option NpArr × NpArr × NpArr) := do
  let dldyf := G.slice (n * l.outF) ((n + 1) * l.outF)
  let hf := H.slice (n * l.outF) ((n + 1) * l.outF)
  let dldhf := s.1.getD (npZeros hf.rows hf.cols)
  let (dldxf, dldhf, dldw) ← cellBackward W s.2.2 dldyf dldhf hf
  let dldx ← s.2.1.setSlice (n * l.inF) ((n + 1) * l.inF) dldxf
  .ok (some dldhf, dldx, dldw)

/-- Layer.py:636-658: what is returned, and the layer afterwards.  Simplified: without frames an exception, instead of a division of arrays by 0. -/
noncomputable def backward (l : PyRnn) (G : NpArr) (st : NpStore) : Out (NpArr × PyRnn) := do
  let X ← pyAttr l.x
  let W ← st.load l.cw
  npCheck (0 < l.inF ∧ 0 < X.cols / l.inF)
  let H ← pyAttr l.h
  let N := X.cols / l.inF
  let (_, dldx, dw) ← forN N (fun k => l.frameBackward W H G (N - 1 - k)) (none, npZeros X.rows X.cols, l.cellDldw)
  .ok (dldx, { l with cellDldw := dw, dldw := dw.map (· / N), weight := some l.cw })

/-- Layer.py:660-661: the layer and the arrays afterwards. -/
noncomputable def optimize (l : PyRnn) (st : NpStore) : Out (PyRnn × NpStore) := do
  let r ← pyAttr l.weight
  let (o, r, st) ← l.opt.optimize r l.dldw st
  .ok ({ l with opt := o, weight := some r }, st)

end PyRnn
end BeeDNN
