# Formal model of BeeDNN in Lean 4 — design

The source is the C++ library in `/repo` (built-in matrix library, i.e. the `#else` branch of every
`USE_EIGEN`).  It is read as text; it is not built or run.  Everything below is about that text.

## 1. Layout

| Directory / file | Contents |
| --- | --- |
| `lean/Verif/Model/*.lean` | the model: definitions only, each with a comment citing file and lines |
| `lean/Verif/Spec/*.lean`  | small independent specifications used in theorem statements |
| `lean/Verif/Lemmas/*.lean`| helper lemmas (closed forms of loops etc.), no property of record |
| `lean/Verif/Props/*.lean` | the property theorems, each with a concrete instance (`example`) beside it |
| `properties.jsonl` | the claims, in words |
| `MANIFEST.json` | claim -> theorem names, status |
| `seeded/LOG.jsonl` | log of wrong-program experiments |
| `tools/manifest.py`, `tools/notes.json` | make `MANIFEST.json` from the theorem names `Cnn_...` |
| `tools/mutate.py` | runs wrong-program experiments in a scratch directory and logs them |

## 2. Modelling conventions

* **Outcome of C++ code.** Code that can go wrong is modelled in `Out α = Except Fault α`.  `Fault` has
  separate constructors for out-of-bounds access, failed `assert`, use after free, double free, null
  dereference, integer division by zero, a thrown C++ exception, non-termination, a conversion to an integer
  type that cannot hold the value (`badCast`) and a violated precondition of a library function
  (`libPrecondition`, e.g. `std::uniform_real_distribution(a,b)` with `b < a`).
  A theorem of the form `f x = .ok y` therefore says: no undefined behaviour, no exception, terminates,
  result `y`.  A failing `assert` is a fault (in a release build it is compiled out and the code goes on
  with a violated precondition; we treat that as not defined).
* **Loops.** `for(i=0;i<n;i++) body` is `forN n body s`, run in the `Out` monad on an explicit state, with
  the same nesting, order and index expressions as the source.
* **Fresh memory.** `new T[n]` has arbitrary contents: model functions that allocate take the garbage
  `g : Nat → α` as a parameter and theorems quantify over it, so no result may depend on it.
* **Scalars.** Four levels are used and each theorem shows which:
  1. *arbitrary* `α` with bare operations (`[Add α] [Mul α] [Zero α]`, no laws): the theorem is about the
     exact sequence of operations and thus also holds for IEEE floats;
  2. an arbitrary (ordered) field;
  3. `ℝ` where analysis is needed (exp, derivatives);
  4. `F32` (Model/Float32): IEEE 754 binary32 with rounding to nearest even, gradual underflow, infinities and NaN, in
     which model functions of level 1 are run unchanged.  Simplified: the sign of zero and of NaN is not kept
     (`1/0` is `nan` there), operations are rounded one by one (no fused or extended arithmetic); of `::expf` and
     `::sqrtf` only what Spec/Float32 states is assumed.
  In 2 and 3 rounding, overflow, NaN are outside the model.
* **Indices.** `Index` (`ptrdiff_t`) is `Nat` where the code only makes non-negative values under the stated
  preconditions, `Int` where it can become negative; wrap-around at 2^63 is outside the model.
* **Randomness.** The generator is an adversary: an arbitrary stream of numbers as a parameter.
* **Files.** A file is its list of bytes/characters; the operating system may fail to open it.
* **Threads.** Interleavings of atomic steps (sequential consistency); torn or reordered accesses are not
  modelled.
* **Not modelled at all.** Eigen branch, console output, `assert` texts, timing, the Python side of the binding, python/beednn apart from what the table below lists, the samples not listed in the table below.

## 3. Per-property plan

(how it is modelled; how it is proved; *violated* marks claims the code breaks: the negation is proved on a
witness and a `_partial` theorem states what does hold)

| Claim | Plan |
| --- | --- |
| C01 | `Mat` = rows, cols, row-major list; accessors with bounds faults; get/set laws, injectivity of `r*C+c` |
| C02 | `operator*=` RKC triple loop on garbage result; closed form by loop invariants; any arithmetic |
| C03 | transpose loop; closed form; law from C02 |
| C04 | elementwise loops, reductions |
| C05-C08 | heap model (blocks, owner/view objects, fresh ids); step relation; invariants by induction over histories; dangling-view witness |
| C09 | `std::shuffle` modelled as Fisher-Yates over arbitrary draws; `Perm` result; row multiset of pairs preserved |
| C10-C13 | loop models, closed forms |
| C14 | loop model; *violated* for `channelWiseMean` scaling unless rows*cols = 1 |
| C15 | pointer loop model; *violated*: result is a palindrome |
| C16, C17 | token-level model of stream extraction; *violated*: fromString swaps sizes, fromFile reads one extra element per line and overflows |
| C18 | draw model `(x & 0xffff) < int(65536p)`; counting |
| C19-C22 | layer models calling the matrix model; adjoint identities; rowwise lemma closed under composition |
| C23, C24 | each activation as a real function; `HasDerivAt` theorems; *violated* for SineReLU, Logit, TanhExp, SQ-RBF (witnesses) |
| C25, C62, C86 | name tables as finite maps; proofs by case analysis over all strings |
| C26, C27 | real model of softmax rows |
| C28-C32 | loop models with index arithmetic; adjointness; C29 *violated* for more than one sample or channel |
| C33-C36 | im2col/col2im/LUT loop models |
| C37-C43 | layer models with train flag, mask, random stream; C38 *violated* by RandomFlip, C39 *violated* for more than one row, C43 *violated* |
| C44 | clone functions per layer |
| C45, C46 | layer models; weight gradients of gains are documented as not the true gradients |
| C47-C49 | Net as list of layers; predict loop with the alternating buffers |
| C50-C59 | trainer state machine: batches, fit loop over arbitrary score sequence, pointer model of collected parameters; C52, C54, C58, C59 *violated* in parts |
| C91, C92, C95, C96, C97 | feed-forward networks of fifteen kinds of layers as a mathematical object (Spec/Mlp); a refinement of the network objects by it, kept by every batch and epoch; C95 gives the factor by which each step differs from gradient descent |
| C98 | networks of 31 of the 34 layer classes: forms (width, floor) between the layers (Spec/Trainable), an invariant that every pass, optimizer step, clone and assignment keeps; constructors establish it |
| C99-C103 | the generic models of matrices, layers, softmax and optimizers run on `F32`; rounding lemmas (nearest, monotone, exact on floats), error accumulation by induction over the sums, invariants over any number of optimizer steps; C102 *violated* in part (small steps are lost) |
| C60, C61 | loss functions over ℝ |
| C63-C68 | optimizers as per-coordinate state machines plus matrix wrapper; invariants by induction over gradient sequences |
| C69, C70 | regularizers over ℝ |
| C71, C72 | scalers over ordered field / ℝ; C71 *violated* for constant columns |
| C75, C76 | `Metrics.compute`; counts over the samples as specification |
| C73, C74, C93 | KMeans loops; Lloyd steps as specification, descent of the quantisation error |
| C77, C78 | writer state machine with explicit character output; JSON grammar as spec; C78 *violated* |
| C79 | `save` as a list of calls; text read back with the parser of Spec/Json; *violated*: arguments that are not written, six digits, LayerDot (theorems for each) |
| C80-C82, C94 | byte-level readers with a stream that can fail; C80 *violated* for short files and sizes modulo 2^32, C81/C82 *violated* for CIFAR flags, C94 *violated* for folder names |
| C83, C84 | interleaving semantics of the unsynchronised check-then-act; *violated* with witness schedule, holds when updates are atomic |
| C85 | initializer bounds |
| C104 | the sample programs as compositions of the modelled readers, network, trainer and metrics; facts about any trainable network (C98) are applied to them |
| C105 | the functions of the Python library over the model of the network; *violated* for more than one output column, for empty networks and for layers that need sizes |
| C106 | each body against a table of common definitions (Spec/ActivationBook, which does not import the model; its header says for which names the code was the only source) |
| C107 | two runs side by side: contents of fresh memory are a function argument of the model (`Env.g`, `Env.gi`), so a simulation relation (equal but for members written before they are read, Spec/Reproducible) is carried through constructors, passes, optimizers, clones, assignments and the epoch loop |
| C108 | the loss of each batch (Spec/Reported `batchLoss`) is carried through batch, epoch and run of `fit`; sums over batches are regrouped to sums over samples, and shuffles drop out as permutations |
| C109 | the score list of C51 with every score identified as a loss or accuracy of the network after that epoch (`evalLoss`, `evalAcc`); the witness is a one-weight network |
| C110 | a table of defaults by name (Spec/Settings, which does not import the model); an invariant of the optimizers over the epochs of `fit` |
| C111 | a heap of helper objects with pointers from any number of trainers and models; refinement to a state without pointers (Spec/Helpers); *violated* for leaks |
| C112 | the loop of `predict` on floats, for networks of dense, dot, bias and activation layers; induction over the layers with bounds of values and errors that Spec/Float32Net computes from the weights |
| C113 | two runs of KMeans `fit` side by side with different fresh memory; invariants of the shapes through samples, batches and epochs; *violated* with keep-best |
| C114 | the KMeans sample as a composition of the reader, `set_sizes`, `fit`, `predict_classes` and the metrics; *violated* through C113 |
| C115 | `fitAlone`: the rounds of `MetaOptimizer::fit` with threads one after the other, by induction over runs and rounds; the callback as a fold over the reports; the sample as an instance; *partial*: threads at the same time race (C83), and the first run uses none of the registered optimizers |
| C116 | one epoch with all samples in a batch is a gradient step of a convex quadratic function (C92, Spec/Linear); the step lemma of gradient descent for its curvature, summed over the epochs; with keep-best the losses reported (C108) decide, which are multiples of the error before each epoch |
| C117 | programs over matrices and trainers, with addresses (Model/Data) and with copies (Spec/Data); step by step simulation, by induction over the program |
| C118 | the sum of squared distances falls strictly while a reference moves, and after an epoch it depends on the assignment of the samples only; two of `n ^ N + 1` assignments are equal |
| C119 | every epoch is one step along the gradient of the error (C95), a sum over the samples; induction over the epochs for networks with the same parameters; for any optimizer by its rule (C122) |
| C120 | average over all draws by summing products over the draws (`drawMean_prod_subset`); count of the draws that keep exactly a given set |
| C121 | the published scalar rules (C64) commute with the symmetry; one relation between the two memories per symmetry, by induction over the steps |
| C122 | `Mlp.Training` (Spec/MlpRule): the networks of a run, the orders of the samples, the gradients, and every parameter as `Coord.run` of the gradients so far; `fit` produces such a run for every optimizer (C122_fit, C122_smooth); consequences for None, SGD and Step |
| C123 | heavy ball and Nesterov methods for convex functions with bounded curvature over any scalar product (energy and distance arguments), applied to the rule of C122 on the parameters of the layer; the least squares solution exists by projection onto the range of a linear map |
| C124 | every batch is a step along the gradient of its error (C92); for data that a linear model explains, the derivative towards this model is minus twice the error, and the square of the gradient is at most the error times 2 over the step length; telescoping sum over batches and epochs |
| C125 | every epoch is one step of gradient descent (C92, C95, C96); each loss lies between its tangent and a parabola (second derivatives; for softmax the variance of the logits); the usual telescoping argument; a network near an unsaturated one is unsaturated |
| C126 | the values of the units follow the renumbering layer by layer; so does the error, hence the gradients (uniqueness of the gradient); the optimizers treat every number for itself (C122), so the parameters follow by induction over all batches |
| C127 | one step of the optimizer loop applies the regularizer to the stored gradient and then the rule; the invariant of training (C122) is generalised from no regularizer to any; penalties and bounds then follow from the gradient handed to the rule |
| C128 | C127 gives the steps; the penalty makes the error strongly convex, so that a step contracts squared distances up to the excess of the error; induction over the epochs; the best solution exists by compactness, and is unique by strong convexity |
| C129 | the counter is the epoch modulo the period; the optimizers after an epoch are those of the batches or their re-initialisation; re-initialising gives a fresh optimizer with the same settings; the theorem on chains of calls of optimize (C127) applies to every round |
| C130 | the chain of C92/C127 generalised to losses with weights: the loss gradient of a sample is multiplied with the weight of its label, which does not depend on the outputs, so the chain rule gives the gradient of the weighted error; summing over the fibres of the labels gives the mean over the classes |
| C131 | every output of a layer is a function that changes at most by the gain times the largest change of the inputs: sums and products of such functions for the linear layers, the mean value theorem for activations and softmax; induction over the layers |
| C132 | a pixel of the output is a sum (mean, maximum) over a window of the input that moves along with the pixel; induction over the layers with the product of the remaining strides |
| C133 | numpy arrays are cells of a store and variables are positions in it; each layer is shown to return the row function of Spec/Mlp, and either to append one cell or to keep the cell it was given; induction over the layers |
| C134 | by cases over the table of activations: equality of the formulas branch by branch, derivatives carried over from C23 or computed, and no derivative exists at the kinks and jumps |
| C135 | induction over the layers: the arrays kept by the forward pass stay as they are until the backward pass (aliasing invariant), the backward pass carries the derivative of the error, and the optimizer subtracts it; agreement with the C++ library by uniqueness of gradients and C95 |
| C136 | loop invariant over batches and epochs: the layers represent a network, the data array is not shared with parameters and unchanged; each batch by C135, init by induction over the layers |
| C137 | induction over the steps: the arrays of the object hold, cell by cell, the state of a scalar rule; scalar rules compared with Coord.run of C64, RPROP- with the invariant that step sizes stay in [1e-6, 50] |
| C138 | one batch as in C135 but with parameters that may stay in their arrays: invariant that all parameter arrays are distinct; sequence of states by dependent choice, each parameter a chain of calls of its optimizer as in C137 |
| C139 | confusion matrix as sum of indicators over the samples; fit as in C138, with the state between the last batch and the predictions for the accuracies kept in the chain of states; invariant on the record by induction over epochs |
| C140 | threads as a transition system with one transition for each access to the shared attributes; two invariants by induction over the schedule, one for any schedule and one for schedules that interrupt no callback |
| C141 | loop invariant over the frames for state, self.h and self.y; for training, an invariant over the rounds that the array of the cell is not the one the optimizer returns |
| C142 | argmax is the first maximum of each row (C49), which depends on the order of the outputs only; induction over the layers for rescaled and for plain networks |
| C143 | numpy arrays as shape and numbers in row order; reshape with -1; places of indices by induction over the dimensions |
| C144 | bytes after the header, cut into images by reshape; comparison with C80 by the place of a pixel in the file |
| C145 | each constructor gives a layer that stands for the described one; induction over the layers added |
| C146 | the program as a composition of the modelled functions; C145 gives the premises of the theorems on fit (C122, C116) without assumptions on the state |
| C147 | the error is a mean, so repeated data have the same error and gradients; two trainings by the rule of the optimizer (C122) side by side, by induction over the epochs |
| C148 | both losses and both gradients are equal row by row, and so are the two rules for a right answer; two runs side by side, through batches, epochs and evaluation, by induction |
| C149 | fit leaves settings, buffers and the local network as the next call needs them (invariants of C53, C92); trainings by the rule of SGD (C127, C129) append; induction over the calls |

## 4. What is modelled

(file: modelled / not modelled)

| Source | Model | Not modelled |
| --- | --- | --- |
| Matrix.h, Matrix.cpp | Model/Matrix, Heap, Text | Eigen branch; `toString` formatting precision; rounding (but see C99-C103, C112) |
| Layer.h/.cpp, LayerDense, LayerDot, LayerBias, LayerGlobalBias, LayerGain, LayerGlobalGain, LayerAffine, LayerGlobalAffine, LayerChannelBias, LayerActivation | Model/LayersBasic | virtual dispatch |
| Activations.cpp | Model/Activations | float rounding and overflow, except `apply` of Relu, Absolute, HardTanh, Identity and LeakyRelu (Model/Float32Net) |
| LayerSoftmax, LayerSoftmin | Model/Softmax | |
| Loss.cpp | Model/Loss | |
| LayerMaxPool2D, LayerAveragePooling2D, LayerGlobalMaxPool2D, LayerGlobalAveragePooling2D, LayerZeroPadding2D | Model/Pooling | |
| LayerConvolution2D | Model/Conv | constructor arguments giving negative sizes are one error outcome |
| dropout, noise, uniform noise, RandomFlip, CRelu, gated, PRelu, PELU, TERELU, RRelu, time-distributed layers | Model/LayersMisc | the generator (arbitrary stream instead) |
| LayerRNN, LayerSimpleRNN, LayerSimplestRNN | Model/Recurrent | |
| Optimizer.cpp | Model/Optimizer | rounding, except SGD and Adam (C102, C103) |
| Regularizer.cpp | Model/Regularizer | rounding; norm clipping with a negative parameter and a zero gradient (0/0) |
| Initializers.cpp | Model/Initializers | the distributions (arbitrary draws) |
| Layer.cpp and the layer classes as objects: constructors, `init`, `clone`, dispatch | Model/Layer | negative constructor arguments |
| Net.cpp | Model/Net; `predict` on floats: Model/Float32Net | `const` access functions; floats in other layers than dense, dot, bias and activation |
| NetTrain.cpp | Model/Train; lifetime of the data matrices: Model/Data | callbacks that change the trainer or the data; `float` rounding (a division by zero gives an arbitrary number) |
| NetTrain.cpp, KMeans.cpp: `new` and `delete` of losses, regularizers, optimizers | Model/Helpers | the values of the other members (in Model/Train, Model/KMeans); an `operator new` that fails |
| MinMaxScaler.cpp, StandardScaler.cpp | Model/Scaler | rounding (a division by zero gives an arbitrary number) |
| Metrics.cpp | Model/Metrics | NaN; predictions outside of the 64-bit integers |
| MNISTReader.cpp, CIFAR10Reader.cpp, CsvFileReader.cpp, DataSource.cpp | Model/Readers | the file system (a function from names to contents); reads of more than 2^31 bytes |
| LayerFactory.cpp | Model/Factory | negative sizes (an error in the model) |
| MetaOptimizer.cpp | Model/Meta | thread creation and joining; weak memory: the accesses are indivisible steps in any order, the data race itself is stated as a conflict; the user's function |
| JsonFile.cpp | Model/Json | writing the file; locales other than C |
| NetUtil.cpp `save` | Model/NetSave | weights that are infinite or NaN; sizes above 2^31-1 |
| KMeans.cpp, KMeansTrain.cpp | Model/KMeans; lifetime of the data matrices: Model/Data | callbacks that change the model (who owns the loss object: Model/Helpers) |
| samples/: MNIST, MNIST_poolmax2D, MNIST_TimeSeries, MNIST_allconvolutional, CIFAR10, xor, sin, KMeans_MNIST, MetaOptimizer_MNIST | Model/Samples, SamplesKm, SamplesMeta | printing; epoch callbacks (they only print); the final checks of accuracies with their exit code; in the MetaOptimizer sample the saving of the models found and threads at the same time |
| python/beednn/Layer.py, Loss.py, Optimizer.py, Model.py (`compute_confusion_matrix`, `Model.predict`, `backpropagation`, `optimize`, `Train.fit`) | Model/PyLib, Model/PyTrain, Model/PyFit, Model/PyOptimizer, Model/PyTrainBy, Model/PyLog, Model/PyRnn, Model/PyArray (`LayerFlatten`) | `RNNCellNaive`; `LayerRNN` and `LayerFlatten` are modelled on their own, not as a layer of a `Model`; callbacks; rounding (numbers are real); integer arrays; shapes with other than two dimensions |
| python/beednn/MNIST_import.py | Model/PyArray | closing of the files; old versions of numpy that refuse an empty buffer |
| python/beednn/MetaOptimizer.py (`MetaOptimizer.run`) | Model/PyMeta | training in the threads (their accuracies are given); output and saved files; the threads' shared reading of the data |

## 5. Where the code disagrees with the claims

Each has a theorem with the exact behaviour or a witness, beside the partial theorem for what does hold.

| Claim | Place | What happens |
| --- | --- | --- |
| C08 | Matrix.h views | a view outlives its owner: use after free |
| C14 | Matrix.cpp:528 | `channelWiseMean` is off by the factor (rows*cols)^2 |
| C15 | Matrix.cpp:561-567 | `reverseData` makes a palindrome |
| C16 | Matrix.cpp:406-426 | `fromString` swaps the sizes; overflow with two or more rows |
| C17 | Matrix.cpp:371-404 | `fromFile` reads an extra uninitialised column |
| C23 | Activations.cpp | derivatives of SineReLU (x<0), Logit, TanhExp (at 0), SQ-RBF (abs x < 1) |
| C27, C96 | LayerSoftmax | backward is right only behind the matching cross entropy; where the probability of the true class is below eps the gradient vanishes with it instead of being p-1 |
| C28 | LayerMaxPool2D | pixels at or below -1e38 are ignored and record index -1 |
| C29 | LayerMaxPool2D.cpp:107 | backward uses the winners of sample 0, channel 0 for all |
| C34 | LayerConvolution2D | fast and naive backward add in opposite order (rounding only) |
| C35 | LayerConvolution2D | strides of 3 and more drop output positions |
| C38 | LayerRandomFlip.cpp:48 | flips at inference instead of training, and mirrors only half of the row |
| C39 | LayerGaussianDropout.cpp:34 | asserts for two or more samples |
| C43, C90 | LayerRNN and derived | weights re-drawn in forward, last frame skipped, state kept between calls, bias dropped; back-propagation absent or unrelated to the incoming gradient |
| C45 | LayerGlobalBias, LayerGain, LayerChannelBias | parameter gradients scaled or not the true ones |
| C44 | LayerDot.cpp:31, LayerGatedActivation.cpp:18-35 | the clone of Dot forgets its initializer; a gated layer of unknown names crashes in `clone` |
| C47 | Net.cpp:65-74, LayerRNN.cpp | no layers, or a recurrent layer with one frame: the output matrix is left as it was |
| C48 | Net.cpp:38-48, Net.h | self-assignment deletes all layers; the implicit copy constructor shares the layers (double free) |
| C56 | Loss.cpp | balanced loss value uses the class of the first sample only |
| C50 | NetTrain.cpp:285-300, Matrix.cpp:442 | a batch size of 0 or less ends in an assertion |
| C52 | NetTrain.cpp: fit | when the patience runs out before the last epoch the layers are deleted and replaced, and training goes on through the old pointers |
| C53 | NetTrain.cpp | training accuracies are recorded in classification mode only |
| C54 | NetTrain.cpp:350 | the loss of an evaluation is the sum of the batch means instead of the mean |
| C57 | NetTrain.cpp:500-550 | the period of `reboost` is one more than set; a network without parameters gets a negative rate |
| C58 | NetTrain.cpp:95 | the validation batch size is not copied |
| C59 | NetTrain.cpp: set_net | parameters created in the first forward pass (Bias, Gain, Affine, PRelu, PELU, TERELU) are never trained |
| C60 | Matrix.h:416-424 | `::abs` may be the C integer function |
| C61 | Loss.cpp | categorical cross entropy: gradient of another function |
| C65 | Optimizer.cpp | Step and AdamW move with zero gradients |
| C67 | Optimizer.cpp, `::abs` | Adamax with the integer `abs` |
| C68 | Optimizer.cpp:793 | iRPROP- clones to RPROP- |
| C69 | Regularizer.cpp | without `set_parameter` the clip interval is reversed |
| C71 | MinMaxScaler.cpp:23-27 | a column with a single value is left unchanged, also when it is outside [0,1] |
| C75, C76 | Metrics.cpp:43-74 | a reference label of -1 or less writes before the buffer, one beyond the given number of classes fails an assertion; without samples the accuracy is 0/0; a class without samples makes its row and the balanced accuracy 0/0 |
| C77 | JsonFile.cpp:64-87 | infinite numbers and NaN make the text invalid; floats keep six digits only |
| C78 | JsonFile.cpp:44-55, 89-96 | strings are not escaped: a quote, backslash or control character changes or breaks the text; leaving once too often gives invalid text, twice throws |
| C79 | NetUtil.cpp:84-231 | weights and real arguments with six digits only; arguments of average pooling, zero padding, random flip, Gaussian dropout, gated activation and recurrent layers are not written, neither are matrix shapes; SimpleRNN and SimplestRNN have the same name; LayerDot is cast to LayerDense (undefined behaviour) |
| C80 | MNISTReader.cpp:38-94 | short files are accepted (values are what was in memory); the counts of images and labels are not compared; `uiNbRows*uiNbColumns` is modulo 2^32 |
| C81, C82 | CIFAR10Reader.cpp:18-80 | the flags of `DataSource` are never set: `has_data()` is false after a successful load; short files are accepted |
| C82 | MNISTReader.cpp:18-36 | a load that fails on the second file has replaced the training images (unscaled) while the flags stay true |
| C94 | CsvFileReader.cpp:16-21 | the last occurrence of the word is replaced wherever it is, so `latest/x_train_data.csv` opens `latrain/…` |
| C73, C74 | KMeans.cpp:85-99, KMeansTrain.cpp:164-171 | a sample 1e38 or more away from all references is a failed assertion; no training data is a division by zero; the first batch has one sample more than the others |
| C83 | MetaOptimizer.cpp:69-79 | `_fBestAccuracy` is read and written by all threads without synchronisation: a data race; even with indivisible accesses a worse accuracy can replace a better one and the function is called for it; every repetition restarts at -1; without validation data only the first epoch is ever reported |
| C84 | MetaOptimizer.cpp:88-94, 159-165 | the drawn optimizer is written to the shared trainer after the run took its copy: the run trains with the old one, and a later run with a draw that was not its own |
| C86 | LayerFactory.cpp:42-115 | eleven layer classes cannot be created by their type name; `RandomFlip` is made under the name `RandFlip` |
| C87 | LayerTimeDistributedDense.cpp:79, LayerTimeDistributedBias | bias gradient is 1/T of the true one |
| C95 | LayerConvolution2D, LayerChannelBias, LayerTimeDistributed* | steps are not gradient descent on the mean error: kernels of convolutions move N times as far for N samples, layers before a convolution 1/(kernel size times output channels), image biases rows*cols times, time distributed biases 1/T |
| C88 | LayerPELU, LayerTERELU | parameter gradients ignore the incoming gradient |
| C99 | Matrix.cpp: `sum` | the order of the terms matters: 2^24 + 1 - 2^24 is 0 (`C99_order`); outside the claim, recorded as its limit |
| C100 | LayerSoftmax.cpp | one infinite input turns its whole row into NaN |
| C101 | Matrix.cpp `rowsArgmax` | a row that starts with NaN is class 0; class numbers above 2^24 fall together |
| C102 | Optimizer.cpp:141-149 | a step of at most 2^-27 of the weight is lost every time, so training stands still although the gradient is not zero (in exact arithmetic it would descend, C97) |
| C105 | python_binding/BeeDNNLib.cpp:50-54 | one float is returned per sample, in the order of memory: wrong as soon as the network has two output columns; an empty network returns uninitialised memory; layers are added without sizes, so that dense layers cannot be used (and `plot_tanh_vs_hardtanh.py` calls a class `BeeDNN` that `BeeDNNLoader.py` does not define) |
| C108 | NetTrain.cpp:478, 628 | the mean of each batch is added and the sum divided by the number of samples, not of batches: for the nine losses that have one value per sample the reported loss is the mean divided by the batch size, and losses of runs with other batch sizes cannot be compared |
| C109 | NetTrain.cpp:436-450 | without validation data the original network is scored by `compute_loss_accuracy` (not divided by the number of samples), epochs by the loss of line 478 (divided twice, and measured before the steps): with one batch of two or more samples the first epoch always wins, also when it made the network worse (`C109_wrong`: loss 1 before, 81 after) |
| C111 | NetTrain.cpp:66-70 | the destructor does not delete the regularizer |
| C111 | KMeans.cpp:37 | assignment does not delete the old loss; KMeansTrain.cpp:161, 234, 243 assigns in every training that keeps the best model |
| C113 | KMeans.cpp:45-52, KMeansTrain.cpp:151-162 | `set_sizes` leaves the references uninitialised and `fit` with keep-best (the default) scores them first: the result may be the old content of the memory, or a failed assertion |
| C114 | sample_KMeans_MNIST.cpp:53 | so does the sample: with large numbers in memory it ends in a failed assertion, with suitable small ones it ends with the content of memory as references |
| C115 | MetaOptimizer.cpp:88-94 | the first run of a search trains with the settings of the trainer and not with a registered optimizer, so in the sample with the learning rate -1 (the default of the optimizer) although all registered ones have 0.01 |
| C117 | NetTrain.cpp:383-393, KMeansTrain.cpp:114-124 | the data are not copied: a matrix destroyed between `set_train_data` and `fit` (such as a temporary) is read afterwards; the claim has this as a condition |
| C118 | KMeansTrain.cpp:204-217 | each batch forgets the sums of the ones before: with batch size 1 and one reference the result is the last sample instead of the mean (C118_batches_wrong); the claim is for full batches |
| C111 | NetTrain.h | no copy constructor: destroying a copy and the original deletes the helpers twice (`C111_copy_double_free`; nothing in the repository copies a trainer this way) |
| C121 | Optimizer.cpp:104-112 | a zero gradient counts as positive: the weight moves although there is no slope, and the mirror image does not move to the mirror image (C121_step_violated) |
| C130 | Loss.cpp:32-43, 375-510 | the three cross entropies ignore the class weights; with one truth column per class `mTruth(i)` is the i-th number counted through the rows, so a sample gets the weight of class 0 or 1 by its position |
| C133 | python/beednn/Layer.py:138, 150, 162, 175, 185, 215 | `u=x` does not copy: six activations write their result to the array they are given, so that a model that starts with one of them overwrites the data of the caller (-1 becomes -0.01, and -0.0001 after the next call) |
| C134 | python/beednn/Layer.py:85, 151, 163, 200 | Bipolar, HardELU and HardShrink have other values at their jumps than in the C++ library (HardELU at -2 is -2, there it is -1); the derivative of Logit is taken for x/(1-x) and is 1/(x(1-x)) |
| C135 | python/beednn/Layer.py:428-432, 117-122 with 342-355, 460, 527 | Dropout: the backward pass ignores the mask, so weights of dropped columns are trained; Exponential keeps its output as derivative, which noise or an activation working in place behind it overwrites; gradients of the weights of time distributed layers are not divided by the batch size (in the C++ library they are) |
| C136 | python/beednn/Model.py:124, 167, 197-198 | fit calls init, so training cannot be continued (C136_forgets); for the metrics "accuracy" training data are predicted in training mode, by which a first layer working in place (LeakyRELU, HardTanh, RELU6, noise) overwrites them; the best model is copied but never used |
| C137 | python/beednn/Optimizer.py:36, 152, 175 | Momentum starts with the first gradient as velocity (like MomentumNg, where velocities are averages of gradients; here they are multiplied by the learning rate), so that the first step is 91 times as long as meant by default (C137_momentum_first); line 175: Nadam does not multiply the first moment by beta1, so that its first step is twice the learning rate; line 152: Adamax adds 1e-8 to the norm it keeps in every step |
| C139 | python/beednn/Model.py:15-22, 164, 73 | the number of classes is taken from the largest label, so that predicting a class beyond it raises an exception (C139_raises); metrics "accuracy" fails with a single output (floats as indices) and with one-hot truths (C139_single, C139_onehot); the loss of an epoch is divided by the number of numbers in the data, not of samples (C139_loss_divided); best_accuracy is not reset by fit, so in a second call the best model can remain the one before training |
| C140 | python/beednn/MetaOptimizer.py:37-39 | max_accuracy and best_net are tested and assigned by all threads without a lock: best_net can be a worse model than max_accuracy says (C140_mismatch), and the best model can be lost (C140_lost); without metrics "accuracy" best_net remains None (C140_no_metrics) |
| C141 | python/beednn/Layer.py:584-592, 657-661 | back-propagation applies the derivative of tanh to the averaged gradient instead of the output, so a gradient 0 becomes 1 (C141_gradient); self.weight gets the new weights but the cell keeps its own, so that training with Step, SGD, Momentum, MomentumNg or RPROP- never changes the recurrent weights (C141_never_learns); sizes other than equal ones raise an exception (C141_sizes) |
| C143 | python/beednn/Layer.py:42-45 | reshape((n,-1)) raises an exception for a batch without samples (C143_empty); back-propagation takes the first two sizes of a sample only: an exception for samples that are rows (C143_flat), c times as many samples for images with c channels (C143_channels) |
| C144 | python/beednn/MNIST_import.py:8-16 | the header is skipped without a look at magic number, count and sizes (C144_header), and a file of labels that is too short gives fewer labels than images without an error (C144_short_labels) |
| C147 | src/LayerConvolution2D.cpp:109 | gradients of the weights are added over the samples of the batch and not averaged, so that a batch with every sample k times makes steps of SGD k times as long (C147_conv) |

## 6. Trusted base

* the Lean 4.33.0 kernel and the statement of the theorems and definitions they mention (Model, Spec);
* axioms: at most `propext`, `Classical.choice`, `Quot.sound` for every theorem (checked with
  `#print axioms`); no own axioms, no `sorry`, no `native_decide`;
* that the model matches the C++ text: by reading, supported by the line citations.
