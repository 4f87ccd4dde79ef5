import Verif.Model.LayersMisc

/-!
# Model of the recurrent layers (LayerRNN, LayerSimpleRNN, LayerSimplestRNN)

Members a call can change are in the state record; `draw…` are the values the random distribution delivers
to the (re-)initialisation, which is part of `forward`.  `F` is `_iFrameSize`, `U` is `_iUnits`.
-/

namespace BeeDNN

variable {α : Type}

/-- Matrix.h:214-223 `setRandom(rows, cols)` (the distribution on [-1,1] is well defined). -/
def Mat.setRandom (g : Nat → α) (m : Mat α) (r c : Nat) (draw : Nat → α) : Out (Mat α) :=
  (m.resize g r c).setDraws draw

/-- LayerRNN.h: `_h` and `_savedH`, and the weights `w` of the derived class. -/
structure Rnn (W α : Type) where
  w : W
  h : Mat α
  saved : List (Mat α)

/-- LayerRNN.cpp:26-30: re-initialisation unless a single frame of a single sample is predicted. -/
def rnnStart {W : Type} (F size : Nat) (train : Bool) (init : Rnn W α → Out (Rnn W α)) (st : Rnn W α) : Out (Rnn W α) :=
  if size ≠ F ∨ train = true then init st else .ok st

/-- LayerRNN.cpp:56-60: sum of the weight gradients, the first one is copied. -/
def sumGradient [Add α] (g : Nat → α) (sum gw : Mat α) : Out (Mat α) :=
  if sum.size = 0 then sum.assign g gw else sum.add gw

/-- LayerRNN.cpp:22-41 `forward`; `init` and `frame` are the virtual functions `init` and `forward_frame`.
Returns the layer and `mOut`.  The loop `for (iS = 0; iS < cols - F; iS += F)` runs `cols/F - 1` times because
`F` divides `cols` (line 24).  The local `mFrame` is a value. -/
def rnnForward {W : Type} (g : Nat → α) (F : Nat) (train : Bool) (init : Rnn W α → Out (Rnn W α))
    (frame : Rnn W α → Mat α → Mat α → Out (Rnn W α × Mat α)) (st : Rnn W α) (mIn mOut : Mat α) :
    Out (Rnn W α × Mat α) :=
  if F = 0 then .error .divByZero
  else do
    check (mIn.cols % F = 0)
    let st ← rnnStart F mIn.size train init st
    forN (mIn.cols / F - 1) (fun i (s : Rnn W α × Mat α) => do
      let mFrame ← Mat.colExtract g mIn (i * F) (i * F + F)
      let (st, mOut) ← frame s.1 mFrame s.2
      return (if train then { st with saved := st.saved ++ [st.h] } else st, mOut)) (st, mOut)

/-- `std::vector::operator[]`: undefined behaviour outside of the vector. -/
def savedAt (l : List (Mat α)) (i : Nat) : Out (Mat α) :=
  match l[i]? with
  | some m => .ok m
  | none => .error .outOfBounds

/-- LayerRNN.cpp:43-65 `backpropagation`; `frame` is the virtual `backpropagation_frame`, which gets the frame,
`h(t)`, `h(t-1)`, the gradient and the current `_gradientWeight` and `mGradientIn`, and returns the last two.
The loop runs `iS = n-2, …, 1`.  Returns `_gradientWeight` and `mGradientIn`. -/
def rnnBackward [Zero α] [One α] [Add α] [Mul α] [Div α] [NatCast α] (g : Nat → α) (F : Nat)
    (frame : Mat α → Mat α → Mat α → Mat α → Mat α × Mat α → Out (Mat α × Mat α)) (saved : List (Mat α))
    (gw mIn gOut gIn : Mat α) : Out (Mat α × Mat α) :=
  if F = 0 then .error .divByZero
  else do
    let n := mIn.cols / F
    let s ← forN (n - 2) (fun i (s : Mat α × Mat α × Mat α × Mat α) => do
      let (gw, gIn, gTemp, sum) := s
      let iS := n - 2 - i
      let mH ← savedAt saved iS
      let mHm1 ← savedAt saved (iS - 1)
      let mFrame ← Mat.colExtract g mIn (iS * F) (iS * F + F)
      let (gw, gIn) ← frame mFrame mH mHm1 gTemp (gw, gIn)
      let gTemp ← gTemp.assign g gIn
      let sum ← sumGradient g sum gw
      return (gw, gIn, gTemp, sum)) (gw, gIn, gOut, ⟨0, 0, []⟩)
    let t ← s.2.2.2.scale (1 / (n : α))
    let gw ← s.1.assign g t
    return (gw, s.2.1)

/-! ## LayerSimpleRNN -/

/-- LayerSimpleRNN.h: `_whh`, `_wxh`, `_bh`. -/
structure SimpleW (α : Type) where
  whh : Mat α
  wxh : Mat α
  bh : Mat α

/-- LayerSimpleRNN.cpp:22-30 `init` and LayerRNN.cpp:67-71. -/
def simpleInit [Zero α] (g : Nat → α) (F U : Nat) (drawH drawX : Nat → α) (st : Rnn (SimpleW α) α) :
    Out (Rnn (SimpleW α) α) := do
  let whh ← st.w.whh.setRandom g U U drawH
  let wxh ← st.w.wxh.setRandom g F U drawX
  let bh ← st.w.bh.setConstantRC g 1 U 0
  let h ← st.h.setConstantRC g 1 U 0
  return ⟨⟨whh, wxh, bh⟩, h, []⟩

/-- LayerSimpleRNN.cpp:43-49 `forward_frame`; `th` is `tanh`.  The result of `rowWiseAdd` is dropped. -/
def simpleFrame [Zero α] [Add α] [Mul α] (g : Nat → α) (th : α → α) (st : Rnn (SimpleW α) α) (mIn mOut : Mat α) :
    Out (Rnn (SimpleW α) α × Mat α) := do
  let a ← Mat.mul g st.h st.w.whh
  let b ← Mat.mul g mIn st.w.wxh
  let t ← a.add b
  let h ← st.h.assign g t
  let _ ← h.rowWiseAdd st.w.bh
  let t ← h.cwise th
  let h ← h.assign g t
  let mOut ← mOut.assign g h
  return ({ st with h := h }, mOut)

/-- LayerSimpleRNN.cpp:51-54 `backpropagation_frame`: empty. -/
def simpleBackFrame (_mFrame _mH _mHm1 _gOut : Mat α) (s : Mat α × Mat α) : Out (Mat α × Mat α) := .ok s

/-! ## LayerSimplestRNN -/

/-- LayerSimplestRNN.cpp:22-27 `init` and LayerRNN.cpp:67-71 (`_h` keeps its value). -/
def simplestInit (g : Nat → α) (U : Nat) (draw : Nat → α) (st : Rnn (Mat α) α) : Out (Rnn (Mat α) α) := do
  let w ← st.w.setRandom g U U draw
  return ⟨w, st.h, []⟩

/-- LayerSimplestRNN.cpp:38-46 `forward_frame`. -/
def simplestFrame [Zero α] [Add α] [Mul α] (g : Nat → α) (U : Nat) (st : Rnn (Mat α) α) (mIn mOut : Mat α) :
    Out (Rnn (Mat α) α × Mat α) := do
  let h ← if st.h.rows ≠ mIn.rows then st.h.setConstantRC g mIn.rows U 0 else .ok st.h
  let t ← Mat.mul g h st.w
  let u ← t.add mIn
  let h ← h.assign g u
  let mOut ← mOut.assign g h
  return ({ st with h := h }, mOut)

/-- LayerSimplestRNN.cpp:48-61 `backpropagation_frame`. -/
def simplestBackFrame [Zero α] [One α] [Add α] [Mul α] [Div α] [NatCast α] (g : Nat → α) (first : Bool) (w : Mat α)
    (_mFrame mH mHm1 _gOut : Mat α) (s : Mat α × Mat α) : Out (Mat α × Mat α) := do
  let ht ← mH.transpose g
  let t ← Mat.mul g ht mHm1
  let gw ← s.1.assign g t
  let gw ← gw.scale (1 / (gw.rows : α))
  if first then return (gw, s.2)
  else do
    let ht ← mH.transpose g
    let t ← Mat.mul g ht w
    let gIn ← s.2.assign g t
    return (gw, gIn)

end BeeDNN
