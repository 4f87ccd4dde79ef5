import Verif.Model.Recurrent

/-!
# Model of `src/Initializers.cpp`

The scalars are the real numbers.  `draw` are the values delivered by the random engine: for the uniform
initializers the draws of the distribution on [-1,1] (Matrix.h:214-223), for the normal ones standard normal
draws `z`, a `std::normal_distribution(mean,dev)` delivering `mean + dev*z`.  A size of zero makes the divisor
of some amplitudes zero; the matrix is then empty and the amplitude is never used.
-/

namespace BeeDNN

/-- Initializers.cpp:19-21, 35-37, 51-53: `m.setRandom(in,out); m*=a`. -/
noncomputable def initUniform (g : Nat → ℝ) (draw : Nat → ℝ) (a : ℝ) (m : Mat ℝ) (i o : Nat) : Out (Mat ℝ) := do
  let m ← m.setRandom g i o draw
  m.scale a

/-- Initializers.cpp:28-29, 44-45, 60-61, 71-72: `m.resize(in,out); setRandomNormal(m,0,a)` with
Matrix.cpp:476-482. -/
noncomputable def initNormal (g : Nat → ℝ) (draw : Nat → ℝ) (a : ℝ) (m : Mat ℝ) (i o : Nat) : Out (Mat ℝ) :=
  (m.resize g i o).setDraws (fun k => 0 + a * draw k)

/-- Initializers.cpp:86-121 `compute`, with the ten functions of lines 16-84. -/
noncomputable def initCompute (g : Nat → ℝ) (draw : Nat → ℝ) (s : String) (m : Mat ℝ) (i o : Nat) : Out (Mat ℝ) :=
  if s = "GlorotUniform" then initUniform g draw (√(6 / ((i : ℝ) + o))) m i o
  else if s = "GlorotNormal" then initNormal g draw (√(2 / ((i : ℝ) + o))) m i o
  else if s = "HeUniform" then initUniform g draw (√(6 / (i : ℝ))) m i o
  else if s = "HeNormal" then initNormal g draw (√(2 / (i : ℝ))) m i o
  else if s = "LecunUniform" then initUniform g draw (√(3 / (i : ℝ))) m i o
  else if s = "LecunNormal" then initNormal g draw (√(1 / (i : ℝ))) m i o
  else if s = "Uniform" then m.setRandom g i o draw
  else if s = "Normal" then initNormal g draw 1 m i o
  else if s = "Zeros" then m.setConstantRC g i o 0
  else if s = "Ones" then m.setConstantRC g i o 1
  else .ok m

end BeeDNN
