{
 "C02": {"note": "Arbitrary scalar operations; the mathematical sum over a semiring."},
 "C100": {"note": "C100_infinite gives the limit: infinite inputs are outside the claim."},
 "C101": {"note": "C101_limit and C101_nan give the limits of the claim."},
 "C102": {"note": "Partial: that every non-zero step changes the weight is false, C102_stall and C102_stuck; the accuracy of one step and finiteness for any number of steps are proved."},
 "C103": {"note": "Of sqrtf only SqrtFloat is assumed. The bounds 2^50 and 2^126 are hypotheses on gradients and initial weights."},
 "C104": {"note": "All seven programs; hypothesis Exact: float stores the kept indices of pooling layers exactly (true below 2^24, see C28). Judged spells out that Metrics guesses the number of classes from the labels, so that predictions above the largest label are counted as that label. Left out: printing and the checks of the final accuracies."},
 "C105": {"note": "Proved for networks with one input column built from all activation functions and the seven other layer classes that need no sizes, and for all sequences of calls. Missing: wider samples (C105_wide_actual shows what is returned instead, C105_wide_wrong a witness), empty networks (C105_empty) and layers that need sizes (C105_dense): there the code violates the claim."},
 "C106": {"note": "60 names exactly over the reals, four up to the rounding of their constants; the table of formulas was written without access to the articles"},
 "C107": {"note": "Networks with Gaussian dropout or recurrent layers are not covered (see C98); draws, data and the conversions of indices are the same in both runs. Reading freed memory is a fault in the model, and does not occur (C98)."},
 "C108": {"note": "C108_batch and C108_fit say what is reported; it is the mean for batches of one sample and for L1, L2, L3 (C108_mean_partial), and the mean divided by the batch size otherwise (C108_divided, C108_wrong). Real arithmetic; regularizers and class weights are off."},
 "C109": {"note": "Proved with validation data (loss as computed by compute_loss_accuracy, a sum of batch means); without it the claim is false (C109_never_original, C109_wrong). Real arithmetic."},
 "C110": {"note": "The defaults are those of Optimizer.cpp and Regularizer.cpp, which are the only documentation. set_decay and set_momentum take effect at the next set_net (fit calls it). Real arithmetic."},
 "C111": {"note": "Partial: nothing is leaked only without regularizers and without KMeans assignments (C111_regularizer_leak, C111_kmeans_leak); no fault and independence hold for all programs. The implicit copy constructor is not among the operations of the programs; C111_copy_double_free shows what it does."},
 "C112": {"note": "The float functions of Relu, Absolute, HardTanh, Identity and LeakyRelu are modelled and proved to be exact or within a stated slack; for other activations FloatAct is a hypothesis about the float function, and they must be Lipschitz. Results of layers are required to stay below 2^126. C112_exact links the program on floats to Net::predict of Model/Net."},
 "C113": {"note": "Without keep-best (or with equal references before training) the two runs agree in every outcome. C113_memory_wrong and C113_assert_wrong show what happens to a new model with keep-best, which is the default. Float rounding and NaN contents of memory are outside the model."},
 "C114": {"note": "The program works when uninitialised memory holds numbers below 1e12 in size; C114_memory_wrong and C114_untrained_wrong show the failed assertion and the untrained result that other contents give. Printing is left out, floats are real numbers."},
 "C115": {"note": "C115_alone_partial and C115_mnist_partial cover threads that run one after the other, for all draws and sizes; C115_race_wrong shows the data race of threads at the same time and C115_first_run_wrong that the first run ignores the registered optimizers."},
 "C116": {"note": "Real arithmetic; no class balancing, no regularizer, no early stopping (FitSetup). The bound on the learning rate uses the trace of the curvature, so up to the ratio of trace to largest eigenvalue may be lost; the one-sample theorem shows that a bound is needed."},
 "C117": {"note": "fit is a single step: callbacks that destroy the data are outside the model. A dangling validation pointer counts as an error also where fit would not read it (no epochs, no keep-best)."},
 "C118": {"note": "Real arithmetic; keep-best is off (with keep-best the result is one of the epochs, C74). C118_batches_wrong shows what small batches do."},
 "C119": {"note": "Real arithmetic: in float the order of the additions changes the last digits. Keep-best is off."},
 "C120": {"note": "Over the reals; the limit is floor((1-r)*65536) of the real product. That the 65536 low-bit values are equally likely is the meaning of the average, not a claim about the generator."},
 "C121": {"note": "Over the reals (an ordered field for signs, shift and mirror image). The scale claim needs gradients of at least 1e-6 in size, since the divisor is at least 1e-8. The mirror image fails for Step with a zero gradient."},
 "C122": {"note": "optimizers not reset in between (reboost off, the default); patience cannot strike (see C57 for what happens then); gradients times the rates of the layers as in C95"},
 "C123": {"note": "Over the reals; keep-best and reboost off; MomentumNg, whose first velocity is the first gradient, is not covered"},
 "C124": {"note": "Over the reals; the losses reported are those of C108"},
 "C125": {"note": "Over the reals; the curvature bounds are 1/K, 1, 1, 1, 1 for the distance losses, 1/2 for softmax, 1/4 for sigmoid"},
 "C126": {"note": "Over the reals. Training: smooth activations and losses without kink, reboost off; for renumbered networks all samples in one batch (the random orders of two runs differ); for symmetric networks any batch size"},
 "C127": {"note": "Over the reals. Reboost off. L1 and L1L2 as gradient descent only while no parameter is zero; layers with true gradients for the penalties. No division by zero in the regularizer is assumed (RegFits)"},
 "C128": {"note": "Over the reals; keep-best off. For the cross entropies as long as no prediction comes closer than eps to 0 or 1"},
 "C129": {"note": "Over the reals; patience not reached (see C57, C96 for what happens then). The period is one more than the number set (disagreement recorded at C57)"},
 "C130": {"note": "Over the reals; one output column and labels as truths; reboost off. With cross entropies and with one column per class balancing does not do what it promises (C130_cross_entropy, C130_columns)"},
 "C131": {"note": "Over the reals (C112 bounds the rounding errors of float)"},
 "C132": {"note": "Zero padding is left out, what it adds at the border does not move; maximum pooling is stated for the layer"},
 "C133": {"note": "Partial: a model whose first layers are among HardTanh, HardELU, HardShrink, LeakyRELU, LeakyRELU256, RELU6 overwrites the input of the caller, and predicting again gives another result (C133_wrong); C133_exact says what is left in the input for every model. Flatten, RNN layers and rounding are not modelled"},
 "C134": {"note": "Partial: the derivative of Logit is wrong on the whole domain (C134_logit_wrong). C134_same says exactly where the two libraries differ: Bipolar at 0, HardELU at -2 and HardShrink at 0.5 and -0.5"},
 "C135": {"note": "Partial: models with dropout, noise, LayerGlobalGain/GlobalBias, Logit, or a layer working in place behind Exponential are not covered (dropout and noise behind Exponential are trained wrongly: C135_dropout_wrong, C135_noise_wrong); gradients of time distributed layers are off by the factor pyRate; other optimizers are not modelled"},
 "C136": {"note": "Partial as C135; with the metrics \"accuracy\" a first layer working in place overwrites the training data after each epoch (C136_data_overwritten). Not modelled: loss values and accuracies collected, best model, callbacks"},
 "C137": {"note": "Over the real numbers. Shapes that numpy would repeat are left out"},
 "C138": {"note": "Same layers left out as in C135: dropout, noise, a single gain or bias, Logit, Exponential before a layer that works in place; time distributed layers with the factor pyRate. Over the real numbers"},
 "C139": {"note": "Violated in part: a class predicted beyond the largest label, a single output, or one-hot truths end in an exception (C139_raises, C139_single, C139_onehot); the loss is divided by the number of inputs (C139_loss_divided). Same models as in C138. Over the real numbers"},
 "C14": {"note": "channelWiseAdd proved. channelWiseMean is violated by the code (factor (rows*cols)^2, Matrix.cpp:528): exact result, partial theorem for 1x1 planes, and refutation for all larger planes."},
 "C140": {"note": "Violated with two threads or more: between test and assignments another thread can run, so the model kept can be worse than max_accuracy says (C140_mismatch), or the best be lost (C140_lost). Proved for one thread (C140_one) and for uninterrupted callbacks. Accuracies are arbitrary; output and saved files are left out"},
 "C141": {"note": "Violated: back-propagation returns 1 - (g/2)^2 in the last frame, whatever input and weights (C141_gradient); with five of the eleven optimizers the weights never change (C141_never_learns). Proved: forward, causality, exceptions for unequal sizes, and that the other optimizers write to the cell. RNNCellNaive is left out. Over the real numbers"},
 "C142": {"note": "Over the real numbers: in float, softmax can make different outputs equal, and scaling by factors other than powers of two rounds. C142_relu shows that an activation that is not strictly increasing may change the class"},
 "C143": {"note": "Proved for batches that are not empty (forward, any dimensions) and for samples of two dimensions (backward). Violated: empty batches raise an exception, back-propagation raises one for samples that are rows already, and gives a wrong number of samples for images with channels (C143_empty, C143_flat, C143_channels)"},
 "C144": {"note": "Proved: all pixels and labels of complete files, agreement with the C++ reader after flattening and division by 256, and exceptions for image files that are missing or too short. Violated: label files that are too short are accepted (C144_short_labels), and the header is not looked at (C144_header). Closing of the files is not modelled"},
 "C145": {"note": "LayerBias is left out: its bias gets its size in the first forward pass only. Dropout and noise layers are described by what they do in training (C145_dropout, C145_noise)"},
 "C146": {"note": "Real numbers. The optimizer part holds while the samples are regular (no kink is hit), as in C122. Validation data, regularizers and class balancing are as the constructor sets them (off)"},
 "C147": {"note": "Proved for networks without convolution layers, whose gradients depend on the number of samples in the batch: there the first step of SGD is exactly k times as long (C147_conv)"},
 "C148": {"note": "C148_same for training (with C98 for the success of both), C148_evaluate for computing loss and accuracy, C148_one_output why two outputs or more are needed; in real arithmetic; balancing and early stopping by patience excluded as in C98"},
 "C149": {"note": "C149_continue for programs of any number of calls with the trainer as the call before has left it; C149_append for the trainings; in real arithmetic. Each call draws its own order of the samples, so the claim is that the run is a training of that length, not that it equals a run with other random numbers. Other optimizers start afresh in every call, as with reboost (C129)"},
 "C15": {"note": "Violated by the code (Matrix.cpp:561-567): exact effect proved, correct iff the data are a palindrome, witness on two cells."},
 "C16": {"note": "Violated by the code for every matrix (Matrix.cpp:406-426): overflow for two or more rows, wrong shape and one uninitialised value for one row. Text of a square matrix without trailing blanks is read correctly."},
 "C17": {"note": "Violated by the code for every matrix with a row (Matrix.cpp:371-404): an extra uninitialised column. Files without a separator at the line ends are read correctly."},
 "C18": {"note": "The 16-bit draws are arbitrary; float rounding of p*65536 is not modelled."},
 "C21": {"note": "All layers of the listed kinds and more (every layer class except RandomFlip and the recurrent ones), any network, every cut of the batch. Max pooling needs pixels above the literal -1.e38f."},
 "C23": {"note": "Violated by SineReLU (x<0), Logit (whole domain), TanhExp (at 0) and SQ-RBF (|x|<1), each proved on explicit points. GELU and SoftSteps are right up to the precision of their float constants. float is modelled by the reals."},
 "C24": {"note": "Over the reals; in float arithmetic strict bounds can be attained by rounding."},
 "C26": {"note": "Over the reals; the subtraction of the row maximum is modelled and shown not to change the value."},
 "C27": {"note": "eps is any positive constant (1.e-8f in the code). C27_other_losses_wrong records that the softmax layer alone does not back-propagate the true gradient behind other losses; C27_saturated and C27_saturated_wrong give the gradient where the probability of the true class is below eps: it vanishes with the probability instead of being p-1."},
 "C28": {"note": "Every pixel must be above the literal -1.e38f; C28_below_constant shows that windows of smaller values are not pooled and record index -1. A factor 0 divides by zero (C28_zero_factor)."},
 "C29": {"note": "Violated by the code (LayerMaxPool2D.cpp:107): the winners of sample 0, channel 0 are used for every sample and channel. Exact behaviour C29_actual, right for one sample and one channel (C29_partial), witness C29_wrong."},
 "C33": {"note": "Constructor arguments whose kernels do not fit give negative sizes in the source; they are an error outcome in the model."},
 "C34": {"note": "Forward: identical for all scalar types. Backward: identical in exact arithmetic; the two paths add in opposite order, so they differ under rounding (C34_backward_rounding)."},
 "C35": {"note": "Holds for every kernel size; output size equals that of a valid correlation for odd kernels at strides 1 and 2, smaller at larger strides (C35_stride_three)."},
 "C36": {"note": "Over the reals. The weight gradient is summed, not averaged, over the batch."},
 "C37": {"note": "Random draws are an arbitrary stream; call histories of any length."},
 "C38": {"note": "Violated by RandomFlip (LayerRandomFlip.cpp:48): it flips at inference and not in training, and the flip copies half of the row only. The other layers are proved."},
 "C39": {"note": "Violated by the code (LayerGaussianDropout.cpp:34): with two or more samples the mask has the wrong width and the product asserts; proved for one sample."},
 "C42": {"note": "Frame size 0 and lengths that are no multiple of the frame size are proved to fail."},
 "C43": {"note": "Violated by the code: forward re-draws the weights (LayerRNN.cpp:26-30), skips the last frame (line 33), SimplestRNN keeps the hidden state of the previous call, SimpleRNN drops its bias and fails for batches of more than one sample. What the layers compute is proved exactly."},
 "C44": {"note": "Parameters for every class; output for every class whose forward is a function of the sample (LayerRow), and for RandomFlip and the recurrent ones with the same random draws. Later independence is C48_independent. Noted: Dot forgets the weight initializer, gated layers with an unknown activation name crash."},
 "C45": {"note": "GlobalBias divides the bias gradient by the number of columns as well as the batch size (LayerGlobalBias.cpp), and the gain gradient is colWiseMean(x^T g), which is not the true gradient; both are proved on witnesses. Forward passes, input gradients and bias gradients are proved."},
 "C46": {"note": "Over the reals. Derivatives at the points where the function is differentiable; TERELU with the constants alpha = mu = 1 of the code."},
 "C47": {"note": "Violated for networks without layers (output untouched) and for a recurrent layer given a single frame (output stale); proved otherwise.", "status": "partial"},
 "C48": {"note": "Violated for self-assignment (Net.cpp:38-48 clears first). Everything else proved, for arbitrary later programs over the interface. The implicit copy constructor leads to a double free.", "status": "partial"},
 "C49": {"note": "Over the reals. A tie between outputs takes the first, a tie in rounding goes away from zero."},
 "C50": {"note": "Every batch but the last has the adjusted size, the last is the rest, together they are the rows in order; a batch size of 0 or less asserts."},
 "C51": {"note": "Proved for every run of fit that ends without fault: the returned model is the epoch's with the first best validation score."},
 "C52": {"status": "partial", "note": "In every run of fit that ends without fault the collected pointers are layers of the trained network before every epoch (C52_current), and with the patience off this holds for any network (C52_same_layers). When the patience runs out before the last epoch, `*_pNet=bestNet` deletes the layers without collecting the pointers again: no run with such a restart ends without fault (C52_restart_wrong), and a feed-forward network that starts with all samples right ends in a use after free (C52_use_after_free)."},
 "C53": {"note": "Lengths and contents of the histories of every run of fit without fault."},
 "C54": {"note": "The accuracy is the percentage of right samples for every batch size (C54_accuracy) and the loss of the three losses that add up (the sum over samples) does not depend on the batch size (C54_sum_loss). For the nine losses that average, the code adds the means of the batches (NetTrain.cpp:354-371): the value is the mean per sample only if one batch holds all samples (C54_mean_loss_partial), and q full batches report q times the mean (C54_loss_wrong). Every one of the twelve losses, any network with a function (NetFn) in test mode, no class weights. C54_evaluation is the exact value for all batch sizes.", "status": "partial"},
 "C55": {"note": "For feed-forward networks of fifteen kinds of layers (any loss, optimizer, depth, sizes, data, batch size) the accuracy of each epoch is exactly 100*r/N, r the number of samples classified right when presented. For every other network the recorded values are shown to be 100*r/N with r at most N, if fit ends without fault; a batch adds exactly the right samples for all twelve losses. In regression mode no training accuracy is recorded (see C53)."},
 "C56": {"note": "Class weights from labels and from one-hot truth (C56_label_weights, C56_onehot_weights), their sum weighted by class sizes (C56_total), and that fit uses them (C56_fit), for every data set in which every class occurs. A class that does not occur divides by zero (the outcome of the division is left open). The loss value reported under class weights uses the weight of the first sample only (C56_balanced_loss_wrong); the gradient uses each sample's own."},
 "C57": {"note": "Every run of fit without fault, with keep-best and a positive starting rate: C57_start_rate gives that rate, C57_patience the rate after fit, C57_plateau and C57_improvement what the schedule means, C57_reboost the period of re-initialisation, which is N+1 epochs. A network without parameters and with the default rate -1 gets the rate -1/2 (C57_no_parameters_wrong), so the claim holds only with the hypothesis of a positive starting rate.", "status": "partial"},
 "C58": {"note": "All settings but the validation batch size are copied, which keeps its own value (C58_validation_batch_wrong, NetTrain.cpp:95).", "status": "partial"},
 "C59": {"note": "Every parameter that set_net finds has its own gradient and optimizer (C59_collected) and is changed once per batch, by its optimizer and no other way (C59_once). Parameters that a layer creates in the first forward pass are not found (C59_lazy_wrong).", "status": "partial"},
 "C60": {"note": "::abs is a parameter of the model: with the C function int abs(int), which the qualified name may denote, MeanAbsoluteError and others vanish on different matrices (C60_integer_abs_wrong)."},
 "C61": {"note": "Violated for CategoricalCrossEntropy and (through C60_sparse_eq_onehot) SparseCategoricalCrossEntropy: compute_gradient is the gradient of the sum of binary cross entropies. Proved for the nine distance losses and BinaryCrossEntropy."},
 "C62": {"note": "Losses, optimizers, regularizers and initializers."},
 "C63": {"note": "Over an arbitrary field (rounding not modelled); closed forms for any number of steps."},
 "C64": {"note": "Whole-matrix runs equal independent coordinate runs of a small specification, for all 15 optimizers and any number of steps."},
 "C65": {"note": "Violated by Step (sign of zero is +1) and AdamW (weight decay); proved for all other optimizers."},
 "C66": {"note": "Initial step size 0.0125; both RPROP variants."},
 "C67": {"note": "Square root is the real one; with the C integer abs Adamax's norm does not dominate the gradient (C67_adamax_intabs_violated)."},
 "C68": {"note": "Violated by iRPROP-, whose clone is an RPROP- (Optimizer.cpp:793); all other optimizers are proved."},
 "C69": {"note": "The parameter must be positive: it is -1 until set_parameter is called (C69_parameter_not_set)."},
 "C70": {"note": "L1 at zero weights has no derivative; there the added value is proved to be a subgradient."},
 "C71": {"note": "Every column that takes two values is mapped increasingly on [0,1] with both ends attained, for every table; a column with a single value is left unchanged, so it can lie outside [0,1] (proved)."},
 "C72": {"note": "For every table, over real numbers; rounding is not modelled."},
 "C73": {"note": "For all twelve losses, any references and samples; exact up to the limit 1e38: beyond it the code asserts (proved). For data up to 1e18 and the default loss there is no restriction (C73_euclid)."},
 "C74": {"note": "Both outcomes are characterised for every batch size, draw and shuffle; fit asserts when a sample is 1e38 or more away from all references. For data up to 1e18 and the default loss it always succeeds (C74_bounded). No data: division by zero."},
 "C75": {"note": "Counts, row sums, accuracy for any label vectors with at least one sample. Negative labels (out-of-bounds write), too large labels (assertion) and the empty set (0/0) are proved as violations."},
 "C76": {"note": "Proved for every label vectors in which every class occurs; C76_absent_class gives the 0/0 row otherwise."},
 "C77": {"note": "Every call tree with clean names and strings and finite numbers gives a JSON object with exactly the members of the tree (floats up to six digits). Numbers that are not finite make the text invalid (C77_not_finite), so the claim holds in part."},
 "C78": {"note": "Violated: a string comes back exactly when it has no quote, backslash or control character; C78_injection shows a value read as two members; C78_leave shows that one leave too many gives invalid text and two throw."},
 "C79": {"note": "Violated in parts. Equal texts imply the same types, saved arguments, weights and biases up to six digits and training parameters. Not determined: exact weights (C79_weight), arguments of several classes (C79_lost), matrix shapes (C79_shape); networks with a LayerDot are undefined behaviour (C79_dot)."},
 "C80": {"note": "Files whose announced counts and sizes are below 2^32 and whose bytes are all there are decoded exactly. Violated: a short file is accepted with what was in memory, images and labels may have different counts, the number of pixels is computed modulo 2^32."},
 "C81": {"note": "Pixels are divided by 255. Violated: the reader never sets the flags, so after a successful load it reports no data (C81_flags); short files are accepted (C81_truncated)."},
 "C82": {"note": "Holds for the CSV reader and for a successful MNIST load. Violated by the CIFAR-10 reader and by a failed second MNIST load, which keeps the old answer and has replaced the images."},
 "C83": {"note": "Violated as stated: the accesses are unsynchronised (C83_race shows two conflicting accesses with no order between them), and even with indivisible accesses a smaller accuracy can overwrite a greater one (C83_lost_update); every repetition forgets the best (C83_repeat). Proved for schedules in which a thread runs the check, the write and the call without interruption (C83_locked_partial), and for one thread with any schedule (C83_one_thread)."},
 "C84": {"note": "Proved for the layers. Violated for the optimizer: the draw is written to the shared trainer after the run has copied it (C84_optimizer_unused), so it takes effect in a later run (C84_optimizer_late)."},
 "C85": {"note": "Over the reals; the draws of the uniform distribution are assumed to lie in [-1,1]. Unknown names leave the matrix as it is (C85_unknown_dense)."},
 "C86": {"note": "For the twenty-two names of the table with arguments that are sizes below 2^31; other arguments fault in the conversion (C86_bad_size). Names unknown to both fail the assertion in the activation layer's constructor. The type names of eleven classes of the library are not in the table (C86_missing)."},
 "C87": {"note": "Violated for the bias (LayerTimeDistributedDense.cpp:79, LayerTimeDistributedBias.cpp): the bias gradient is 1/T of the true one for T frames; weight and input gradients are proved."},
 "C88": {"note": "Violated by PELU and TERELU: the parameter gradients ignore the incoming gradient; PRelu is proved."},
 "C89": {"note": "Draws are an arbitrary stream."},
 "C90": {"status": "partial", "note": "Violated by the code: SimpleRNN back-propagates nothing, SimplestRNN ignores the incoming gradient and fails unless the batch size equals the number of units."},
 "C91": {"note": "The modelled functions are set_net, train_batch, the layers of Spec/Mlp with exact gradients, the nine distance losses and SGD; real arithmetic."},
 "C92": {"note": "fit is total (no fault) for networks of fifteen kinds of layers with all optimizers and all losses of the library, with or without validation data and keep-best; patience must be off or at least the number of epochs (see C52), no class balancing, no regularizer. The gradient statement is for SGD, layers with exact gradients, activations and losses without kinks. Real arithmetic."},
 "C93": {"note": "Sum over the samples whose class has a reference; the cost exists for data up to 1e18."},
 "C94": {"note": "Proved for names in which the words do not occur elsewhere behind or as their counterparts. Violated for folders such as latest/ (C94_folder)."},
 "C95": {"note": "The factors are given by Mlp.rate; C95_rate_pos shows that they are positive, C95_not_descent and C95_convolution_wrong that steps with other factors than one are not gradient descent. Not covered: layers with wrong gradients (gains, PRelu, PELU, TERELU, max pooling, recurrent layers), random layers. Real arithmetic."},
 "C96": {"note": "eps is any positive constant; what happens beyond it is in C27_saturated_wrong. Real arithmetic."},
 "C97": {"note": "All parameters move at the same time; the rates are those of C95. The bound on the learning rate depends on the network and the batch. Real arithmetic."},
 "C98": {"note": "The conditions are those of LayerKind.Takes, Made and Sized. Left out: Gaussian dropout (asserts for two samples, C39) and recurrent layers (C43); exact float indices are assumed as in C28. C98_build gives the networks, C98_fit_runs and C98_predict_runs need only that the layers fit together."},
 "C99": {"note": "Finite inputs and no overflow of the sums are hypotheses; the bound 2^126 leaves room for the errors. Fused multiply-add and extended precision are outside the model of float."}
}
