{
 "claims": [
  {
   "property": "C01",
   "status": "proved",
   "theorems": [
    "BeeDNN.C01_get_set",
    "BeeDNN.C01_addressing",
    "BeeDNN.C01_out_of_range",
    "BeeDNN.C01_out_of_range_linear"
   ],
   "note": ""
  },
  {
   "property": "C02",
   "status": "proved",
   "theorems": [
    "BeeDNN.C02_mul",
    "BeeDNN.C02_mul_sum",
    "BeeDNN.C02_mul_mismatch"
   ],
   "note": "Arbitrary scalar operations; the mathematical sum over a semiring."
  },
  {
   "property": "C03",
   "status": "proved",
   "theorems": [
    "BeeDNN.C03_transpose",
    "BeeDNN.C03_transpose_involutive",
    "BeeDNN.C03_transpose_mul"
   ],
   "note": ""
  },
  {
   "property": "C04",
   "status": "proved",
   "theorems": [
    "BeeDNN.C04_cwise2",
    "BeeDNN.C04_add_sub_mul_scale",
    "BeeDNN.C04_shape_mismatch",
    "BeeDNN.C04_cwise",
    "BeeDNN.C04_sum",
    "BeeDNN.C04_mean",
    "BeeDNN.C04_diagonal",
    "BeeDNN.C04_diagonal_tall",
    "BeeDNN.C04_asDiagonal",
    "BeeDNN.C04_sum_double",
    "BeeDNN.C04_maxCoeff"
   ],
   "note": ""
  },
  {
   "property": "C05",
   "status": "proved",
   "theorems": [
    "BeeDNN.C05_resize_same_size",
    "BeeDNN.C05_resize_other_size"
   ],
   "note": ""
  },
  {
   "property": "C06",
   "status": "proved",
   "theorems": [
    "BeeDNN.C06_programs_sound",
    "BeeDNN.C06_no_fault",
    "BeeDNN.C06_no_leak",
    "BeeDNN.C06_destroy_ok"
   ],
   "note": ""
  },
  {
   "property": "C07",
   "status": "proved",
   "theorems": [
    "BeeDNN.C07_isolated",
    "BeeDNN.C07_older_objects",
    "BeeDNN.C07_copy",
    "BeeDNN.C07_row_assign",
    "BeeDNN.C07_assign"
   ],
   "note": ""
  },
  {
   "property": "C08",
   "status": "proved",
   "theorems": [
    "BeeDNN.C08_view_valid_iff",
    "BeeDNN.C08_dangling",
    "BeeDNN.C08_self_view_assign",
    "BeeDNN.C08_assign_own_row"
   ],
   "note": ""
  },
  {
   "property": "C09",
   "status": "proved",
   "theorems": [
    "BeeDNN.C09_randPerm",
    "BeeDNN.C09_applyRowPermutation",
    "BeeDNN.C09_bad_permutation",
    "BeeDNN.C09_shuffle_keeps_pairs"
   ],
   "note": ""
  },
  {
   "property": "C10",
   "status": "proved",
   "theorems": [
    "BeeDNN.C10_rowWise",
    "BeeDNN.C10_colWise",
    "BeeDNN.C10_colWiseMax",
    "BeeDNN.C10_colWiseMin",
    "BeeDNN.C10_colWise_empty",
    "BeeDNN.C10_rowWise_ops"
   ],
   "note": ""
  },
  {
   "property": "C11",
   "status": "proved",
   "theorems": [
    "BeeDNN.C11_argmax",
    "BeeDNN.C11_rowsArgmax"
   ],
   "note": ""
  },
  {
   "property": "C12",
   "status": "proved",
   "theorems": [
    "BeeDNN.C12_clamp"
   ],
   "note": ""
  },
  {
   "property": "C13",
   "status": "proved",
   "theorems": [
    "BeeDNN.C13_viewRow",
    "BeeDNN.C13_copyInto",
    "BeeDNN.C13_colExtract",
    "BeeDNN.C13_decimate",
    "BeeDNN.C13_cut_and_paste"
   ],
   "note": ""
  },
  {
   "property": "C14",
   "status": "partial",
   "theorems": [
    "BeeDNN.C14_channelWiseAdd",
    "BeeDNN.C14_channelWiseMean_scaled",
    "BeeDNN.C14_channelWiseMean_partial",
    "BeeDNN.C14_channelWiseMean_wrong"
   ],
   "note": "channelWiseAdd proved. channelWiseMean is violated by the code (factor (rows*cols)^2, Matrix.cpp:528): exact result, partial theorem for 1x1 planes, and refutation for all larger planes."
  },
  {
   "property": "C15",
   "status": "partial",
   "theorems": [
    "BeeDNN.C15_reverseData_effect",
    "BeeDNN.C15_reverseData_partial",
    "BeeDNN.C15_reverseData_wrong"
   ],
   "note": "Violated by the code (Matrix.cpp:561-567): exact effect proved, correct iff the data are a palindrome, witness on two cells."
  },
  {
   "property": "C16",
   "status": "partial",
   "theorems": [
    "BeeDNN.C16_overflow",
    "BeeDNN.C16_one_row",
    "BeeDNN.C16_never",
    "BeeDNN.C16_swapped",
    "BeeDNN.C16_square_partial"
   ],
   "note": "Violated by the code for every matrix (Matrix.cpp:406-426): overflow for two or more rows, wrong shape and one uninitialised value for one row. Text of a square matrix without trailing blanks is read correctly."
  },
  {
   "property": "C17",
   "status": "partial",
   "theorems": [
    "BeeDNN.C17_extra_column",
    "BeeDNN.C17_never",
    "BeeDNN.C17_csv_partial",
    "BeeDNN.C17_overflow"
   ],
   "note": "Violated by the code for every matrix with a row (Matrix.cpp:371-404): an extra uninitialised column. Files without a separator at the line ends are read correctly."
  },
  {
   "property": "C18",
   "status": "proved",
   "theorems": [
    "BeeDNN.C18_quickBernoulli",
    "BeeDNN.C18_probability"
   ],
   "note": "The 16-bit draws are arbitrary; float rounding of p*65536 is not modelled."
  },
  {
   "property": "C19",
   "status": "proved",
   "theorems": [
    "BeeDNN.C19_dense",
    "BeeDNN.C19_dense_real",
    "BeeDNN.C19_dot",
    "BeeDNN.C19_mismatch"
   ],
   "note": ""
  },
  {
   "property": "C20",
   "status": "proved",
   "theorems": [
    "BeeDNN.C20_dense_pass",
    "BeeDNN.C20_dot_pass",
    "BeeDNN.C20_dense",
    "BeeDNN.C20_dense_true_gradients",
    "BeeDNN.C20_dot_true_gradients",
    "BeeDNN.C20_dot_first"
   ],
   "note": ""
  },
  {
   "property": "C21",
   "status": "proved",
   "theorems": [
    "BeeDNN.C21_layer",
    "BeeDNN.C21_batch",
    "BeeDNN.C21_cut"
   ],
   "note": "All layers of the listed kinds and more (every layer class except RandomFlip and the recurrent ones), any network, every cut of the batch. Max pooling needs pixels above the literal -1.e38f."
  },
  {
   "property": "C22",
   "status": "proved",
   "theorems": [
    "BeeDNN.C22_activation_pass",
    "BeeDNN.C22_forward",
    "BeeDNN.C22_backward",
    "BeeDNN.C22_chain_rule",
    "BeeDNN.C22_mismatch"
   ],
   "note": ""
  },
  {
   "property": "C23",
   "status": "partial",
   "theorems": [
    "BeeDNN.C23_derivation",
    "BeeDNN.C23_differentiable",
    "BeeDNN.C23_softSteps_close",
    "BeeDNN.C23_gelu_close",
    "BeeDNN.C23_sineReLU_wrong",
    "BeeDNN.C23_sineReLU_partial",
    "BeeDNN.C23_logit_wrong",
    "BeeDNN.C23_tanhExp_wrong",
    "BeeDNN.C23_sqrbf_wrong",
    "BeeDNN.C23_sqrbf_partial"
   ],
   "note": "Violated by SineReLU (x<0), Logit (whole domain), TanhExp (at 0) and SQ-RBF (|x|<1), each proved on explicit points. GELU and SoftSteps are right up to the precision of their float constants. float is modelled by the reals."
  },
  {
   "property": "C24",
   "status": "proved",
   "theorems": [
    "BeeDNN.C24_unit_range",
    "BeeDNN.C24_tanh_range",
    "BeeDNN.C24_hard_range",
    "BeeDNN.C24_other_range",
    "BeeDNN.C24_monotone_smooth",
    "BeeDNN.C24_monotone_piecewise"
   ],
   "note": "Over the reals; in float arithmetic strict bounds can be attained by rounding."
  },
  {
   "property": "C25",
   "status": "proved",
   "theorems": [
    "BeeDNN.C25_known_iff",
    "BeeDNN.C25_name",
    "BeeDNN.C25_nodup",
    "BeeDNN.C25_unknown"
   ],
   "note": ""
  },
  {
   "property": "C26",
   "status": "proved",
   "theorems": [
    "BeeDNN.C26_softmin_pass",
    "BeeDNN.C26_softmax_pass",
    "BeeDNN.C26_softmax_value",
    "BeeDNN.C26_softmax",
    "BeeDNN.C26_shift",
    "BeeDNN.C26_softmin"
   ],
   "note": "Over the reals; the subtraction of the row maximum is modelled and shown not to change the value."
  },
  {
   "property": "C27",
   "status": "proved",
   "theorems": [
    "BeeDNN.C27_first",
    "BeeDNN.C27_p_minus_t",
    "BeeDNN.C27_sparse",
    "BeeDNN.C27_true_gradient",
    "BeeDNN.C27_other_losses_wrong",
    "BeeDNN.C27_saturated",
    "BeeDNN.C27_saturated_wrong"
   ],
   "note": "eps is any positive constant (1.e-8f in the code). C27_other_losses_wrong records that the softmax layer alone does not back-propagate the true gradient behind other losses; C27_saturated and C27_saturated_wrong give the gradient where the probability of the true class is below eps: it vanishes with the probability instead of being p-1."
  },
  {
   "property": "C28",
   "status": "proved",
   "theorems": [
    "BeeDNN.C28_maxpool",
    "BeeDNN.C28_zero_factor",
    "BeeDNN.C28_below_constant"
   ],
   "note": "Every pixel must be above the literal -1.e38f; C28_below_constant shows that windows of smaller values are not pooled and record index -1. A factor 0 divides by zero (C28_zero_factor)."
  },
  {
   "property": "C29",
   "status": "partial",
   "theorems": [
    "BeeDNN.C29_maxPool_pass",
    "BeeDNN.C29_actual",
    "BeeDNN.C29_partial",
    "BeeDNN.C29_wrong"
   ],
   "note": "Violated by the code (LayerMaxPool2D.cpp:107): the winners of sample 0, channel 0 are used for every sample and channel. Exact behaviour C29_actual, right for one sample and one channel (C29_partial), witness C29_wrong."
  },
  {
   "property": "C30",
   "status": "proved",
   "theorems": [
    "BeeDNN.C30_globalMaxPool_pass",
    "BeeDNN.C30_globalmax"
   ],
   "note": ""
  },
  {
   "property": "C31",
   "status": "proved",
   "theorems": [
    "BeeDNN.C31_globalAvgPool_pass",
    "BeeDNN.C31_avgPool_pass",
    "BeeDNN.C31_average",
    "BeeDNN.C31_globalaverage"
   ],
   "note": ""
  },
  {
   "property": "C32",
   "status": "proved",
   "theorems": [
    "BeeDNN.C32_zeroPad_pass",
    "BeeDNN.C32_forward",
    "BeeDNN.C32_backward",
    "BeeDNN.C32_left_inverse",
    "BeeDNN.C32_adjoint"
   ],
   "note": ""
  },
  {
   "property": "C33",
   "status": "proved",
   "theorems": [
    "BeeDNN.C33_memory_safe"
   ],
   "note": "Constructor arguments whose kernels do not fit give negative sizes in the source; they are an error outcome in the model."
  },
  {
   "property": "C34",
   "status": "partial",
   "theorems": [
    "BeeDNN.C34_forward",
    "BeeDNN.C34_backward_partial",
    "BeeDNN.C34_backward_rounding"
   ],
   "note": "Forward: identical for all scalar types. Backward: identical in exact arithmetic; the two paths add in opposite order, so they differ under rounding (C34_backward_rounding)."
  },
  {
   "property": "C35",
   "status": "proved",
   "theorems": [
    "BeeDNN.C35_cross_correlation",
    "BeeDNN.C35_output_size",
    "BeeDNN.C35_stride_three"
   ],
   "note": "Holds for every kernel size; output size equals that of a valid correlation for odd kernels at strides 1 and 2, smaller at larger strides (C35_stride_three)."
  },
  {
   "property": "C36",
   "status": "proved",
   "theorems": [
    "BeeDNN.C36_gradients"
   ],
   "note": "Over the reals. The weight gradient is summed, not averaged, over the batch."
  },
  {
   "property": "C37",
   "status": "proved",
   "theorems": [
    "BeeDNN.C37_dropout_pass",
    "BeeDNN.C37_dropout_object",
    "BeeDNN.C37_identity",
    "BeeDNN.C37_backward_rate_zero",
    "BeeDNN.C37_training",
    "BeeDNN.C37_history"
   ],
   "note": "Random draws are an arbitrary stream; call histories of any length."
  },
  {
   "property": "C38",
   "status": "partial",
   "theorems": [
    "BeeDNN.C38_noise_object",
    "BeeDNN.C38_noise_pass",
    "BeeDNN.C38_flip_object",
    "BeeDNN.C38_noise_test",
    "BeeDNN.C38_noise_train",
    "BeeDNN.C38_gaussianDropout_test",
    "BeeDNN.C38_identity_partial",
    "BeeDNN.C38_flip_train",
    "BeeDNN.C38_flip_test",
    "BeeDNN.C38_flip_test_identity_iff",
    "BeeDNN.C38_flip_counterexample",
    "BeeDNN.C38_flip_backward_fault",
    "BeeDNN.C38_set_mode",
    "BeeDNN.C38_noise_off"
   ],
   "note": "Violated by RandomFlip (LayerRandomFlip.cpp:48): it flips at inference and not in training, and the flip copies half of the row only. The other layers are proved."
  },
  {
   "property": "C39",
   "status": "partial",
   "theorems": [
    "BeeDNN.C39_single_partial",
    "BeeDNN.C39_batch_fault"
   ],
   "note": "Violated by the code (LayerGaussianDropout.cpp:34): with two or more samples the mask has the wrong width and the product asserts; proved for one sample."
  },
  {
   "property": "C40",
   "status": "proved",
   "theorems": [
    "BeeDNN.C40_crelu_pass",
    "BeeDNN.C40_forward",
    "BeeDNN.C40_lossless",
    "BeeDNN.C40_backward",
    "BeeDNN.C40_gradient"
   ],
   "note": ""
  },
  {
   "property": "C41",
   "status": "proved",
   "theorems": [
    "BeeDNN.C41_gated_pass",
    "BeeDNN.C41_forward",
    "BeeDNN.C41_odd",
    "BeeDNN.C41_gradient",
    "BeeDNN.C41_named"
   ],
   "note": ""
  },
  {
   "property": "C42",
   "status": "proved",
   "theorems": [
    "BeeDNN.C42_tdBias_pass",
    "BeeDNN.C42_tdDot_pass",
    "BeeDNN.C42_tdDense_pass",
    "BeeDNN.C42_bias",
    "BeeDNN.C42_dense",
    "BeeDNN.C42_dot",
    "BeeDNN.C42_bad_frames"
   ],
   "note": "Frame size 0 and lengths that are no multiple of the frame size are proved to fail."
  },
  {
   "property": "C43",
   "status": "partial",
   "theorems": [
    "BeeDNN.C43_last_frame_ignored",
    "BeeDNN.C43_single_frame",
    "BeeDNN.C43_streaming_noop",
    "BeeDNN.C43_simplest_partial",
    "BeeDNN.C43_simplest_new_batch_partial",
    "BeeDNN.C43_simplest_weights_lost",
    "BeeDNN.C43_simple_partial",
    "BeeDNN.C43_simple_batch_fault"
   ],
   "note": "Violated by the code: forward re-draws the weights (LayerRNN.cpp:26-30), skips the last frame (line 33), SimplestRNN keeps the hidden state of the previous call, SimpleRNN drops its bias and fails for batches of more than one sample. What the layers compute is proved exactly."
  },
  {
   "property": "C44",
   "status": "proved",
   "theorems": [
    "BeeDNN.C44_params",
    "BeeDNN.C44_output",
    "BeeDNN.C44_output_random",
    "BeeDNN.C44_constructed",
    "BeeDNN.C44_gated_unknown",
    "BeeDNN.C44_dot_initializer"
   ],
   "note": "Parameters for every class; output for every class whose forward is a function of the sample (LayerRow), and for RandomFlip and the recurrent ones with the same random draws. Later independence is C48_independent. Noted: Dot forgets the weight initializer, gated layers with an unknown activation name crash."
  },
  {
   "property": "C45",
   "status": "partial",
   "theorems": [
    "BeeDNN.C45_gain_pass",
    "BeeDNN.C45_affine_pass",
    "BeeDNN.C45_globalBias_pass",
    "BeeDNN.C45_globalGain_pass",
    "BeeDNN.C45_globalAffine_pass",
    "BeeDNN.C45_bias_forward",
    "BeeDNN.C45_bias_first_forward",
    "BeeDNN.C45_bias_gradients",
    "BeeDNN.C45_gain_forward",
    "BeeDNN.C45_gain_backward",
    "BeeDNN.C45_gain_weight_gradient_wrong",
    "BeeDNN.C45_affine_forward",
    "BeeDNN.C45_affine_gradients",
    "BeeDNN.C45_global_forward",
    "BeeDNN.C45_global_input_gradients",
    "BeeDNN.C45_globalBias_gradient_partial",
    "BeeDNN.C45_globalBias_gradient_wrong",
    "BeeDNN.C45_channelBias_forward",
    "BeeDNN.C45_channelBias_gradients"
   ],
   "note": "GlobalBias divides the bias gradient by the number of columns as well as the batch size (LayerGlobalBias.cpp), and the gain gradient is colWiseMean(x^T g), which is not the true gradient; both are proved on witnesses. Forward passes, input gradients and bias gradients are proved."
  },
  {
   "property": "C46",
   "status": "proved",
   "theorems": [
    "BeeDNN.C46_prelu_pass",
    "BeeDNN.C46_pelu_pass",
    "BeeDNN.C46_terelu_pass",
    "BeeDNN.C46_first_pass",
    "BeeDNN.C46_prelu_forward",
    "BeeDNN.C46_prelu_first",
    "BeeDNN.C46_pelu_forward",
    "BeeDNN.C46_pelu_first",
    "BeeDNN.C46_terelu_forward",
    "BeeDNN.C46_terelu_first",
    "BeeDNN.C46_rrelu_test",
    "BeeDNN.C46_prelu_input",
    "BeeDNN.C46_pelu_input",
    "BeeDNN.C46_pelu_constraint",
    "BeeDNN.C46_terelu_input"
   ],
   "note": "Over the reals. Derivatives at the points where the function is differentiable; TERELU with the constants alpha = mu = 1 of the code."
  },
  {
   "property": "C47",
   "status": "partial",
   "theorems": [
    "BeeDNN.C47_compose",
    "BeeDNN.C47_one",
    "BeeDNN.C47_add",
    "BeeDNN.C47_empty",
    "BeeDNN.C47_stale_output"
   ],
   "note": "Violated for networks without layers (output untouched) and for a recurrent layer given a single frame (output stale); proved otherwise."
  },
  {
   "property": "C48",
   "status": "partial",
   "theorems": [
    "BeeDNN.C48_assign",
    "BeeDNN.C48_predict",
    "BeeDNN.C48_self_assignment_empties",
    "BeeDNN.C48_independent",
    "BeeDNN.C48_no_fault",
    "BeeDNN.C48_copy_constructor_double_free"
   ],
   "note": "Violated for self-assignment (Net.cpp:38-48 clears first). Everything else proved, for arbitrary later programs over the interface. The implicit copy constructor leads to a double free."
  },
  {
   "property": "C49",
   "status": "proved",
   "theorems": [
    "BeeDNN.C49_argmax",
    "BeeDNN.C49_round",
    "BeeDNN.C49_classes"
   ],
   "note": "Over the reals. A tie between outputs takes the first, a tie in rounding goes away from zero."
  },
  {
   "property": "C50",
   "status": "proved",
   "theorems": [
    "BeeDNN.C50_batches",
    "BeeDNN.C50_epoch",
    "BeeDNN.C50_partition",
    "BeeDNN.C50_adjusted",
    "BeeDNN.C50_negative",
    "BeeDNN.C50_data"
   ],
   "note": "Every batch but the last has the adjusted size, the last is the rest, together they are the rows in order; a batch size of 0 or less asserts."
  },
  {
   "property": "C51",
   "status": "proved",
   "theorems": [
    "BeeDNN.C51_classification",
    "BeeDNN.C51_regression",
    "BeeDNN.C51_test_mode"
   ],
   "note": "Proved for every run of fit that ends without fault: the returned model is the epoch's with the first best validation score."
  },
  {
   "property": "C52",
   "status": "partial",
   "theorems": [
    "BeeDNN.C52_other_networks",
    "BeeDNN.C52_current",
    "BeeDNN.C52_same_layers",
    "BeeDNN.C52_restart_wrong",
    "BeeDNN.C52_use_after_free"
   ],
   "note": "In every run of fit that ends without fault the collected pointers are layers of the trained network before every epoch (C52_current), and with the patience off this holds for any network (C52_same_layers). When the patience runs out before the last epoch, `*_pNet=bestNet` deletes the layers without collecting the pointers again: no run with such a restart ends without fault (C52_restart_wrong), and a feed-forward network that starts with all samples right ends in a use after free (C52_use_after_free)."
  },
  {
   "property": "C53",
   "status": "proved",
   "theorems": [
    "BeeDNN.C53_lengths",
    "BeeDNN.C53_validation_history",
    "BeeDNN.C53_accuracies"
   ],
   "note": "Lengths and contents of the histories of every run of fit without fault."
  },
  {
   "property": "C54",
   "status": "partial",
   "theorems": [
    "BeeDNN.C54_evaluation",
    "BeeDNN.C54_accuracy",
    "BeeDNN.C54_sum_loss",
    "BeeDNN.C54_mean_loss_partial",
    "BeeDNN.C54_loss_wrong"
   ],
   "note": "The accuracy is the percentage of right samples for every batch size (C54_accuracy) and the loss of the three losses that add up (the sum over samples) does not depend on the batch size (C54_sum_loss). For the nine losses that average, the code adds the means of the batches (NetTrain.cpp:354-371): the value is the mean per sample only if one batch holds all samples (C54_mean_loss_partial), and q full batches report q times the mean (C54_loss_wrong). Every one of the twelve losses, any network with a function (NetFn) in test mode, no class weights. C54_evaluation is the exact value for all batch sizes."
  },
  {
   "property": "C55",
   "status": "proved",
   "theorems": [
    "BeeDNN.C55_batch",
    "BeeDNN.C55_epochs",
    "BeeDNN.C55_range"
   ],
   "note": "For feed-forward networks of fifteen kinds of layers (any loss, optimizer, depth, sizes, data, batch size) the accuracy of each epoch is exactly 100*r/N, r the number of samples classified right when presented. For every other network the recorded values are shown to be 100*r/N with r at most N, if fit ends without fault; a batch adds exactly the right samples for all twelve losses. In regression mode no training accuracy is recorded (see C53)."
  },
  {
   "property": "C56",
   "status": "proved",
   "theorems": [
    "BeeDNN.C56_label_weights",
    "BeeDNN.C56_onehot_weights",
    "BeeDNN.C56_total",
    "BeeDNN.C56_fit",
    "BeeDNN.C56_balanced_gradient",
    "BeeDNN.C56_balanced_loss_wrong"
   ],
   "note": "Class weights from labels and from one-hot truth (C56_label_weights, C56_onehot_weights), their sum weighted by class sizes (C56_total), and that fit uses them (C56_fit), for every data set in which every class occurs. A class that does not occur divides by zero (the outcome of the division is left open). The loss value reported under class weights uses the weight of the first sample only (C56_balanced_loss_wrong); the gradient uses each sample's own."
  },
  {
   "property": "C57",
   "status": "partial",
   "theorems": [
    "BeeDNN.C57_start_rate",
    "BeeDNN.C57_patience",
    "BeeDNN.C57_plateau",
    "BeeDNN.C57_improvement",
    "BeeDNN.C57_reboost",
    "BeeDNN.C57_no_reboost",
    "BeeDNN.C57_no_parameters_wrong"
   ],
   "note": "Every run of fit without fault, with keep-best and a positive starting rate: C57_start_rate gives that rate, C57_patience the rate after fit, C57_plateau and C57_improvement what the schedule means, C57_reboost the period of re-initialisation, which is N+1 epochs. A network without parameters and with the default rate -1 gets the rate -1/2 (C57_no_parameters_wrong), so the claim holds only with the hypothesis of a positive starting rate."
  },
  {
   "property": "C58",
   "status": "partial",
   "theorems": [
    "BeeDNN.C58_copy_partial",
    "BeeDNN.C58_validation_batch_wrong"
   ],
   "note": "All settings but the validation batch size are copied, which keeps its own value (C58_validation_batch_wrong, NetTrain.cpp:95)."
  },
  {
   "property": "C59",
   "status": "partial",
   "theorems": [
    "BeeDNN.C59_collected",
    "BeeDNN.C59_once",
    "BeeDNN.C59_lazy_wrong"
   ],
   "note": "Every parameter that set_net finds has its own gradient and optimizer (C59_collected) and is changed once per batch, by its optimizer and no other way (C59_once). Parameters that a layer creates in the first forward pass are not found (C59_lazy_wrong)."
  },
  {
   "property": "C60",
   "status": "proved",
   "theorems": [
    "BeeDNN.C60_distance",
    "BeeDNN.C60_mismatch",
    "BeeDNN.C60_integer_abs_wrong",
    "BeeDNN.C60_crossEntropy_unweighted",
    "BeeDNN.C60_categorical",
    "BeeDNN.C60_sparse",
    "BeeDNN.C60_sparse_eq_onehot",
    "BeeDNN.C60_sparse_out_of_range",
    "BeeDNN.C60_binary"
   ],
   "note": "::abs is a parameter of the model: with the C function int abs(int), which the qualified name may denote, MeanAbsoluteError and others vanish on different matrices (C60_integer_abs_wrong)."
  },
  {
   "property": "C61",
   "status": "partial",
   "theorems": [
    "BeeDNN.C61_distance",
    "BeeDNN.C61_binary",
    "BeeDNN.C61_categorical_wrong",
    "BeeDNN.C61_categorical_partial"
   ],
   "note": "Violated for CategoricalCrossEntropy and (through C60_sparse_eq_onehot) SparseCategoricalCrossEntropy: compute_gradient is the gradient of the sum of binary cross entropies. Proved for the nine distance losses and BinaryCrossEntropy."
  },
  {
   "property": "C62",
   "status": "proved",
   "theorems": [
    "BeeDNN.C62_initializers",
    "BeeDNN.C62_loss",
    "BeeDNN.C62_optimizer",
    "BeeDNN.C62_regularizer"
   ],
   "note": "Losses, optimizers, regularizers and initializers."
  },
  {
   "property": "C63",
   "status": "proved",
   "theorems": [
    "BeeDNN.C63_none",
    "BeeDNN.C63_sgd",
    "BeeDNN.C63_step",
    "BeeDNN.C63_momentum",
    "BeeDNN.C63_nesterov",
    "BeeDNN.C63_momentumNg",
    "BeeDNN.C63_momentumNg_average"
   ],
   "note": "Over an arbitrary field (rounding not modelled); closed forms for any number of steps."
  },
  {
   "property": "C64",
   "status": "proved",
   "theorems": [
    "BeeDNN.C64_rule",
    "BeeDNN.C64_local",
    "BeeDNN.C64_shape_mismatch"
   ],
   "note": "Whole-matrix runs equal independent coordinate runs of a small specification, for all 15 optimizers and any number of steps."
  },
  {
   "property": "C65",
   "status": "partial",
   "theorems": [
    "BeeDNN.C65_partial",
    "BeeDNN.C65_step_violated",
    "BeeDNN.C65_adamW_violated"
   ],
   "note": "Violated by Step (sign of zero is +1) and AdamW (weight decay); proved for all other optimizers."
  },
  {
   "property": "C66",
   "status": "proved",
   "theorems": [
    "BeeDNN.C66_bounds",
    "BeeDNN.C66_moves"
   ],
   "note": "Initial step size 0.0125; both RPROP variants."
  },
  {
   "property": "C67",
   "status": "proved",
   "theorems": [
    "BeeDNN.C67_second_moments",
    "BeeDNN.C67_adagrad_monotone",
    "BeeDNN.C67_amsgrad_monotone",
    "BeeDNN.C67_adamax",
    "BeeDNN.C67_adamax_intabs_violated",
    "BeeDNN.C67_adam_first_step",
    "BeeDNN.C67_adam_every_step"
   ],
   "note": "Square root is the real one; with the C integer abs Adamax's norm does not dominate the gradient (C67_adamax_intabs_violated)."
  },
  {
   "property": "C68",
   "status": "partial",
   "theorems": [
    "BeeDNN.C68_init_forgets",
    "BeeDNN.C68_set_params",
    "BeeDNN.C68_defaults",
    "BeeDNN.C68_new",
    "BeeDNN.C68_clone_partial",
    "BeeDNN.C68_irprop_violated"
   ],
   "note": "Violated by iRPROP-, whose clone is an RPROP- (Optimizer.cpp:793); all other optimizers are proved."
  },
  {
   "property": "C69",
   "status": "proved",
   "theorems": [
    "BeeDNN.C69_clip",
    "BeeDNN.C69_clip_tanh",
    "BeeDNN.C69_norm_clip",
    "BeeDNN.C69_defaults",
    "BeeDNN.C69_parameter_not_set"
   ],
   "note": "The parameter must be positive: it is -1 until set_parameter is called (C69_parameter_not_set)."
  },
  {
   "property": "C70",
   "status": "proved",
   "theorems": [
    "BeeDNN.C70_l2",
    "BeeDNN.C70_l1",
    "BeeDNN.C70_l1_subgradient",
    "BeeDNN.C70_l1l2",
    "BeeDNN.C70_l1l2_subgradient",
    "BeeDNN.C70_weights_kept",
    "BeeDNN.C70_shape_mismatch"
   ],
   "note": "L1 at zero weights has no derivative; there the added value is proved to be a subgradient."
  },
  {
   "property": "C71",
   "status": "partial",
   "theorems": [
    "BeeDNN.C71_min_max_partial",
    "BeeDNN.C71_constant_wrong",
    "BeeDNN.C71_preconditions"
   ],
   "note": "Every column that takes two values is mapped increasingly on [0,1] with both ends attained, for every table; a column with a single value is left unchanged, so it can lie outside [0,1] (proved)."
  },
  {
   "property": "C72",
   "status": "proved",
   "theorems": [
    "BeeDNN.C72_standard"
   ],
   "note": "For every table, over real numbers; rounding is not modelled."
  },
  {
   "property": "C73",
   "status": "partial",
   "theorems": [
    "BeeDNN.C73_nearest_partial",
    "BeeDNN.C73_euclid",
    "BeeDNN.C73_far_wrong",
    "BeeDNN.C73_no_references"
   ],
   "note": "For all twelve losses, any references and samples; exact up to the limit 1e38: beyond it the code asserts (proved). For data up to 1e18 and the default loss there is no restriction (C73_euclid)."
  },
  {
   "property": "C74",
   "status": "partial",
   "theorems": [
    "BeeDNN.C74_fit_partial",
    "BeeDNN.C74_full_batch",
    "BeeDNN.C74_bounded",
    "BeeDNN.C74_no_data"
   ],
   "note": "Both outcomes are characterised for every batch size, draw and shuffle; fit asserts when a sample is 1e38 or more away from all references. For data up to 1e18 and the default loss it always succeeds (C74_bounded). No data: division by zero."
  },
  {
   "property": "C75",
   "status": "partial",
   "theorems": [
    "BeeDNN.C75_confusion_partial",
    "BeeDNN.C75_no_sample",
    "BeeDNN.C75_label_too_large",
    "BeeDNN.C75_negative_label"
   ],
   "note": "Counts, row sums, accuracy for any label vectors with at least one sample. Negative labels (out-of-bounds write), too large labels (assertion) and the empty set (0/0) are proved as violations."
  },
  {
   "property": "C76",
   "status": "proved",
   "theorems": [
    "BeeDNN.C76_normalized",
    "BeeDNN.C76_absent_class"
   ],
   "note": "Proved for every label vectors in which every class occurs; C76_absent_class gives the 0/0 row otherwise."
  },
  {
   "property": "C77",
   "status": "partial",
   "theorems": [
    "BeeDNN.C77_wellformed_partial",
    "BeeDNN.C77_ties",
    "BeeDNN.C77_balanced",
    "BeeDNN.C77_not_finite"
   ],
   "note": "Every call tree with clean names and strings and finite numbers gives a JSON object with exactly the members of the tree (floats up to six digits). Numbers that are not finite make the text invalid (C77_not_finite), so the claim holds in part."
  },
  {
   "property": "C78",
   "status": "partial",
   "theorems": [
    "BeeDNN.C78_string_partial",
    "BeeDNN.C78_injection",
    "BeeDNN.C78_leave"
   ],
   "note": "Violated: a string comes back exactly when it has no quote, backslash or control character; C78_injection shows a value read as two members; C78_leave shows that one leave too many gives invalid text and two throw."
  },
  {
   "property": "C79",
   "status": "partial",
   "theorems": [
    "BeeDNN.C79_valid",
    "BeeDNN.C79_same_partial",
    "BeeDNN.C79_lost",
    "BeeDNN.C79_shape",
    "BeeDNN.C79_weight",
    "BeeDNN.C79_dot",
    "BeeDNN.C79_save"
   ],
   "note": "Violated in parts. Equal texts imply the same types, saved arguments, weights and biases up to six digits and training parameters. Not determined: exact weights (C79_weight), arguments of several classes (C79_lost), matrix shapes (C79_shape); networks with a LayerDot are undefined behaviour (C79_dot)."
  },
  {
   "property": "C80",
   "status": "partial",
   "theorems": [
    "BeeDNN.C80_big_endian",
    "BeeDNN.C80_decode_partial",
    "BeeDNN.C80_range",
    "BeeDNN.C80_safe",
    "BeeDNN.C80_refused",
    "BeeDNN.C80_truncated",
    "BeeDNN.C80_empty",
    "BeeDNN.C80_counts",
    "BeeDNN.C80_wrap"
   ],
   "note": "Files whose announced counts and sizes are below 2^32 and whose bytes are all there are decoded exactly. Violated: a short file is accepted with what was in memory, images and labels may have different counts, the number of pixels is computed modulo 2^32."
  },
  {
   "property": "C81",
   "status": "partial",
   "theorems": [
    "BeeDNN.C81_decode_partial",
    "BeeDNN.C81_range",
    "BeeDNN.C81_flags",
    "BeeDNN.C81_refused",
    "BeeDNN.C81_truncated"
   ],
   "note": "Pixels are divided by 255. Violated: the reader never sets the flags, so after a successful load it reports no data (C81_flags); short files are accepted (C81_truncated)."
  },
  {
   "property": "C82",
   "status": "partial",
   "theorems": [
    "BeeDNN.C82_csv_partial",
    "BeeDNN.C82_csv_ok",
    "BeeDNN.C82_mnist",
    "BeeDNN.C82_cifar",
    "BeeDNN.C82_reload",
    "BeeDNN.C82_sizes"
   ],
   "note": "Holds for the CSV reader and for a successful MNIST load. Violated by the CIFAR-10 reader and by a failed second MNIST load, which keeps the old answer and has replaced the images."
  },
  {
   "property": "C83",
   "status": "partial",
   "theorems": [
    "BeeDNN.C83_race",
    "BeeDNN.C83_lost_update",
    "BeeDNN.C83_reported",
    "BeeDNN.C83_locked_partial",
    "BeeDNN.C83_one_thread",
    "BeeDNN.C83_repeat",
    "BeeDNN.C83_no_validation",
    "BeeDNN.C83_no_callback",
    "BeeDNN.C83_threads"
   ],
   "note": "Violated as stated: the accesses are unsynchronised (C83_race shows two conflicting accesses with no order between them), and even with indivisible accesses a smaller accuracy can overwrite a greater one (C83_lost_update); every repetition forgets the best (C83_repeat). Proved for schedules in which a thread runs the check, the write and the call without interruption (C83_locked_partial), and for one thread with any schedule (C83_one_thread)."
  },
  {
   "property": "C84",
   "status": "partial",
   "theorems": [
    "BeeDNN.C84_layers_partial",
    "BeeDNN.C84_choice",
    "BeeDNN.C84_reachable",
    "BeeDNN.C84_none",
    "BeeDNN.C84_ok",
    "BeeDNN.C84_bad",
    "BeeDNN.C84_optimizer_unused",
    "BeeDNN.C84_optimizer_shared",
    "BeeDNN.C84_optimizer_late"
   ],
   "note": "Proved for the layers. Violated for the optimizer: the draw is written to the shared trainer after the run has copied it (C84_optimizer_unused), so it takes effect in a later run (C84_optimizer_late)."
  },
  {
   "property": "C85",
   "status": "proved",
   "theorems": [
    "BeeDNN.C85_uniform",
    "BeeDNN.C85_normal",
    "BeeDNN.C85_constant",
    "BeeDNN.C85_shape",
    "BeeDNN.C85_unknown_dense"
   ],
   "note": "Over the reals; the draws of the uniform distribution are assumed to lie in [-1,1]. Unknown names leave the matrix as it is (C85_unknown_dense)."
  },
  {
   "property": "C86",
   "status": "proved",
   "theorems": [
    "BeeDNN.C86_create",
    "BeeDNN.C86_dense",
    "BeeDNN.C86_activation",
    "BeeDNN.C86_names",
    "BeeDNN.C86_unknown",
    "BeeDNN.C86_missing",
    "BeeDNN.C86_type",
    "BeeDNN.C86_bad_size"
   ],
   "note": "For the twenty-two names of the table with arguments that are sizes below 2^31; other arguments fault in the conversion (C86_bad_size). Names unknown to both fail the assertion in the activation layer's constructor. The type names of eleven classes of the library are not in the table (C86_missing)."
  },
  {
   "property": "C87",
   "status": "partial",
   "theorems": [
    "BeeDNN.C87_weight_and_input",
    "BeeDNN.C87_bias_partial",
    "BeeDNN.C87_bias_wrong",
    "BeeDNN.C87_tdBias"
   ],
   "note": "Violated for the bias (LayerTimeDistributedDense.cpp:79, LayerTimeDistributedBias.cpp): the bias gradient is 1/T of the true one for T frames; weight and input gradients are proved."
  },
  {
   "property": "C88",
   "status": "partial",
   "theorems": [
    "BeeDNN.C88_prelu",
    "BeeDNN.C88_pelu_partial",
    "BeeDNN.C88_pelu_wrong",
    "BeeDNN.C88_terelu_partial",
    "BeeDNN.C88_terelu_wrong"
   ],
   "note": "Violated by PELU and TERELU: the parameter gradients ignore the incoming gradient; PRelu is proved."
  },
  {
   "property": "C89",
   "status": "proved",
   "theorems": [
    "BeeDNN.C89_rrelu_pass",
    "BeeDNN.C89_rrelu_train",
    "BeeDNN.C89_rrelu_range",
    "BeeDNN.C89_rrelu_order",
    "BeeDNN.C89_rrelu_untrained"
   ],
   "note": "Draws are an arbitrary stream."
  },
  {
   "property": "C90",
   "status": "partial",
   "theorems": [
    "BeeDNN.C90_simple_nothing",
    "BeeDNN.C90_simplest_backward_partial",
    "BeeDNN.C90_simplest_batch_fault"
   ],
   "note": "Violated by the code: SimpleRNN back-propagates nothing, SimplestRNN ignores the incoming gradient and fails unless the batch size equals the number of units."
  },
  {
   "property": "C91",
   "status": "proved",
   "theorems": [
    "BeeDNN.C91_training",
    "BeeDNN.C91_smooth"
   ],
   "note": "The modelled functions are set_net, train_batch, the layers of Spec/Mlp with exact gradients, the nine distance losses and SGD; real arithmetic."
  },
  {
   "property": "C92",
   "status": "proved",
   "theorems": [
    "BeeDNN.C92_fit_runs",
    "BeeDNN.C92_fit_descends"
   ],
   "note": "fit is total (no fault) for networks of fifteen kinds of layers with all optimizers and all losses of the library, with or without validation data and keep-best; patience must be off or at least the number of epochs (see C52), no class balancing, no regularizer. The gradient statement is for SGD, layers with exact gradients, activations and losses without kinks. Real arithmetic."
  },
  {
   "property": "C93",
   "status": "proved",
   "theorems": [
    "BeeDNN.C93_descent",
    "BeeDNN.C93_cost_exists"
   ],
   "note": "Sum over the samples whose class has a reference; the cost exists for data up to 1e18."
  },
  {
   "property": "C94",
   "status": "partial",
   "theorems": [
    "BeeDNN.C94_names_partial",
    "BeeDNN.C94_load_partial",
    "BeeDNN.C94_folder",
    "BeeDNN.C94_same_file"
   ],
   "note": "Proved for names in which the words do not occur elsewhere behind or as their counterparts. Violated for folders such as latest/ (C94_folder)."
  },
  {
   "property": "C95",
   "status": "proved",
   "theorems": [
    "BeeDNN.C95_training",
    "BeeDNN.C95_rate_pos",
    "BeeDNN.C95_not_descent",
    "BeeDNN.C95_convolution_wrong",
    "BeeDNN.C95_fit"
   ],
   "note": "The factors are given by Mlp.rate; C95_rate_pos shows that they are positive, C95_not_descent and C95_convolution_wrong that steps with other factors than one are not gradient descent. Not covered: layers with wrong gradients (gains, PRelu, PELU, TERELU, max pooling, recurrent layers), random layers. Real arithmetic."
  },
  {
   "property": "C96",
   "status": "proved",
   "theorems": [
    "BeeDNN.C96_training",
    "BeeDNN.C96_fit"
   ],
   "note": "eps is any positive constant; what happens beyond it is in C27_saturated_wrong. Real arithmetic."
  },
  {
   "property": "C97",
   "status": "proved",
   "theorems": [
    "BeeDNN.C97_step",
    "BeeDNN.C97_training"
   ],
   "note": "All parameters move at the same time; the rates are those of C95. The bound on the learning rate depends on the network and the batch. Real arithmetic."
  },
  {
   "property": "C98",
   "status": "proved",
   "theorems": [
    "BeeDNN.C98_fit_runs",
    "BeeDNN.C98_predict_runs",
    "BeeDNN.C98_build"
   ],
   "note": "The conditions are those of LayerKind.Takes, Made and Sized. Left out: Gaussian dropout (asserts for two samples, C39) and recurrent layers (C43); exact float indices are assumed as in C28. C98_build gives the networks, C98_fit_runs and C98_predict_runs need only that the layers fit together."
  },
  {
   "property": "C99",
   "status": "proved",
   "theorems": [
    "BeeDNN.C99_nearest",
    "BeeDNN.C99_overflow",
    "BeeDNN.C99_exact",
    "BeeDNN.C99_mul",
    "BeeDNN.C99_dense",
    "BeeDNN.C99_sum",
    "BeeDNN.C99_mean",
    "BeeDNN.C99_dense_backward",
    "BeeDNN.C99_order"
   ],
   "note": "Finite inputs and no overflow of the sums are hypotheses; the bound 2^126 leaves room for the errors. Fused multiply-add and extended precision are outside the model of float."
  },
  {
   "property": "C100",
   "status": "proved",
   "theorems": [
    "BeeDNN.C100_softmax",
    "BeeDNN.C100_softmin",
    "BeeDNN.C100_infinite"
   ],
   "note": "C100_infinite gives the limit: infinite inputs are outside the claim."
  },
  {
   "property": "C101",
   "status": "proved",
   "theorems": [
    "BeeDNN.C101_exact",
    "BeeDNN.C101_injective",
    "BeeDNN.C101_limit",
    "BeeDNN.C101_rowsArgmax",
    "BeeDNN.C101_nan"
   ],
   "note": "C101_limit and C101_nan give the limits of the claim."
  },
  {
   "property": "C102",
   "status": "partial",
   "theorems": [
    "BeeDNN.C102_step_partial",
    "BeeDNN.C102_finite",
    "BeeDNN.C102_stall",
    "BeeDNN.C102_stuck"
   ],
   "note": "Partial: that every non-zero step changes the weight is false, C102_stall and C102_stuck; the accuracy of one step and finiteness for any number of steps are proved."
  },
  {
   "property": "C103",
   "status": "proved",
   "theorems": [
    "BeeDNN.C103_adam"
   ],
   "note": "Of sqrtf only SqrtFloat is assumed. The bounds 2^50 and 2^126 are hypotheses on gradients and initial weights."
  },
  {
   "property": "C104",
   "status": "proved",
   "theorems": [
    "BeeDNN.Samples.C104_mnist",
    "BeeDNN.Samples.C104_mnist_pool",
    "BeeDNN.Samples.C104_mnist_time",
    "BeeDNN.Samples.C104_mnist_conv",
    "BeeDNN.Samples.C104_cifar",
    "BeeDNN.Samples.C104_xor",
    "BeeDNN.Samples.C104_sin",
    "BeeDNN.Samples.C104_no_data",
    "BeeDNN.Samples.C104_cifar_no_data"
   ],
   "note": "All seven programs; hypothesis Exact: float stores the kept indices of pooling layers exactly (true below 2^24, see C28). Judged spells out that Metrics guesses the number of classes from the labels, so that predictions above the largest label are counted as that label. Left out: printing and the checks of the final accuracies."
  },
  {
   "property": "C105",
   "status": "partial",
   "theorems": [
    "BeeDNN.C105_predict_partial",
    "BeeDNN.C105_wide_actual",
    "BeeDNN.C105_wide_wrong",
    "BeeDNN.C105_empty",
    "BeeDNN.C105_dense",
    "BeeDNN.C105_unknown",
    "BeeDNN.C105_short",
    "BeeDNN.C105_sample",
    "BeeDNN.C105_mode"
   ],
   "note": "Proved for networks with one input column built from all activation functions and the seven other layer classes that need no sizes, and for all sequences of calls. Missing: wider samples (C105_wide_actual shows what is returned instead, C105_wide_wrong a witness), empty networks (C105_empty) and layers that need sizes (C105_dense): there the code violates the claim."
  },
  {
   "property": "C106",
   "status": "proved",
   "theorems": [
    "BeeDNN.C106_formula",
    "BeeDNN.C106_rounded",
    "BeeDNN.C106_steps",
    "BeeDNN.C106_synonyms"
   ],
   "note": "60 names exactly over the reals, four up to the rounding of their constants; the table of formulas was written without access to the articles"
  },
  {
   "property": "C107",
   "status": "proved",
   "theorems": [
    "BeeDNN.C107_fit",
    "BeeDNN.C107_predict",
    "BeeDNN.C107_build",
    "BeeDNN.C107_program"
   ],
   "note": "Networks with Gaussian dropout or recurrent layers are not covered (see C98); draws, data and the conversions of indices are the same in both runs. Reading freed memory is a fault in the model, and does not occur (C98)."
  },
  {
   "property": "C108",
   "status": "partial",
   "theorems": [
    "BeeDNN.C108_batch",
    "BeeDNN.C108_fit",
    "BeeDNN.C108_mean_partial",
    "BeeDNN.C108_divided",
    "BeeDNN.C108_wrong"
   ],
   "note": "C108_batch and C108_fit say what is reported; it is the mean for batches of one sample and for L1, L2, L3 (C108_mean_partial), and the mean divided by the batch size otherwise (C108_divided, C108_wrong). Real arithmetic; regularizers and class weights are off."
  },
  {
   "property": "C109",
   "status": "partial",
   "theorems": [
    "BeeDNN.C109_validation_partial",
    "BeeDNN.C109_never_original",
    "BeeDNN.C109_wrong"
   ],
   "note": "Proved with validation data (loss as computed by compute_loss_accuracy, a sum of batch means); without it the claim is false (C109_never_original, C109_wrong). Real arithmetic."
  },
  {
   "property": "C110",
   "status": "proved",
   "theorems": [
    "BeeDNN.C110_set_net",
    "BeeDNN.C110_fit",
    "BeeDNN.C110_set_rate",
    "BeeDNN.C110_set_optimizer",
    "BeeDNN.C110_regularizer",
    "BeeDNN.C110_loss"
   ],
   "note": "The defaults are those of Optimizer.cpp and Regularizer.cpp, which are the only documentation. set_decay and set_momentum take effect at the next set_net (fit calls it). Real arithmetic."
  },
  {
   "property": "C111",
   "status": "partial",
   "theorems": [
    "BeeDNN.C111_view",
    "BeeDNN.C111_step",
    "BeeDNN.C111_no_fault",
    "BeeDNN.C111_lost_forever",
    "BeeDNN.C111_no_leak_partial",
    "BeeDNN.C111_regularizer_leak",
    "BeeDNN.C111_kmeans_leak",
    "BeeDNN.C111_copy_double_free"
   ],
   "note": "Partial: nothing is leaked only without regularizers and without KMeans assignments (C111_regularizer_leak, C111_kmeans_leak); no fault and independence hold for all programs. The implicit copy constructor is not among the operations of the programs; C111_copy_double_free shows what it does."
  },
  {
   "property": "C112",
   "status": "proved",
   "theorems": [
    "BeeDNN.C112_predict",
    "BeeDNN.C112_class",
    "BeeDNN.C112_exact",
    "BeeDNN.C112_relu",
    "BeeDNN.C112_absolute",
    "BeeDNN.C112_hardTanh",
    "BeeDNN.C112_identity",
    "BeeDNN.C112_leakyRelu"
   ],
   "note": "The float functions of Relu, Absolute, HardTanh, Identity and LeakyRelu are modelled and proved to be exact or within a stated slack; for other activations FloatAct is a hypothesis about the float function, and they must be Lipschitz. Results of layers are required to stay below 2^126. C112_exact links the program on floats to Net::predict of Model/Net."
  },
  {
   "property": "C113",
   "status": "partial",
   "theorems": [
    "BeeDNN.C113_fit_partial",
    "BeeDNN.C113_new",
    "BeeDNN.C113_memory_wrong",
    "BeeDNN.C113_assert_wrong"
   ],
   "note": "Without keep-best (or with equal references before training) the two runs agree in every outcome. C113_memory_wrong and C113_assert_wrong show what happens to a new model with keep-best, which is the default. Float rounding and NaN contents of memory are outside the model."
  },
  {
   "property": "C114",
   "status": "partial",
   "theorems": [
    "BeeDNN.Samples.C114_runs_partial",
    "BeeDNN.Samples.C114_memory_wrong",
    "BeeDNN.Samples.C114_untrained_wrong",
    "BeeDNN.Samples.C114_no_data"
   ],
   "note": "The program works when uninitialised memory holds numbers below 1e12 in size; C114_memory_wrong and C114_untrained_wrong show the failed assertion and the untrained result that other contents give. Printing is left out, floats are real numbers."
  },
  {
   "property": "C115",
   "status": "partial",
   "theorems": [
    "BeeDNN.C115_alone_partial",
    "BeeDNN.C115_first_run_wrong",
    "BeeDNN.C115_race_wrong",
    "BeeDNN.Samples.C115_mnist_partial",
    "BeeDNN.Samples.C115_mnist_first_run_wrong",
    "BeeDNN.Samples.C115_no_data"
   ],
   "note": "C115_alone_partial and C115_mnist_partial cover threads that run one after the other, for all draws and sizes; C115_race_wrong shows the data race of threads at the same time and C115_first_run_wrong that the first run ignores the registered optimizers."
  },
  {
   "property": "C116",
   "status": "proved",
   "theorems": [
    "BeeDNN.C116_converges",
    "BeeDNN.C116_one_sample",
    "BeeDNN.C116_keep_best"
   ],
   "note": "Real arithmetic; no class balancing, no regularizer, no early stopping (FitSetup). The bound on the learning rate uses the trace of the curvature, so up to the ratio of trace to largest eigenvalue may be lost; the one-sample theorem shows that a bound is needed."
  },
  {
   "property": "C117",
   "status": "proved",
   "theorems": [
    "BeeDNN.C117_as_copied",
    "BeeDNN.C117_rule",
    "BeeDNN.C117_dangling",
    "BeeDNN.C117_current",
    "BeeDNN.C117_given",
    "BeeDNN.C117_assigned",
    "BeeDNN.C117_destroyed_wrong"
   ],
   "note": "fit is a single step: callbacks that destroy the data are outside the model. A dangling validation pointer counts as an error also where fit would not read it (no epochs, no keep-best)."
  },
  {
   "property": "C118",
   "status": "proved",
   "theorems": [
    "BeeDNN.C118_settles",
    "BeeDNN.C118_more_epochs",
    "BeeDNN.C118_batches_wrong"
   ],
   "note": "Real arithmetic; keep-best is off (with keep-best the result is one of the epochs, C74). C118_batches_wrong shows what small batches do."
  },
  {
   "property": "C119",
   "status": "proved",
   "theorems": [
    "BeeDNN.C119_order",
    "BeeDNN.C119_any_optimizer"
   ],
   "note": "Real arithmetic: in float the order of the additions changes the last digits. Keep-best is off."
  },
  {
   "property": "C120",
   "status": "proved",
   "theorems": [
    "BeeDNN.C120_mean",
    "BeeDNN.C120_independent",
    "BeeDNN.C120_linear"
   ],
   "note": "Over the reals; the limit is floor((1-r)*65536) of the real product. That the 65536 low-bit values are equally likely is the meaning of the average, not a claim about the generator."
  },
  {
   "property": "C121",
   "status": "partial",
   "theorems": [
    "BeeDNN.C121_signs",
    "BeeDNN.C121_shift",
    "BeeDNN.C121_mirror_partial",
    "BeeDNN.C121_step_violated",
    "BeeDNN.C121_scale"
   ],
   "note": "Over the reals (an ordered field for signs, shift and mirror image). The scale claim needs gradients of at least 1e-6 in size, since the divisor is at least 1e-8. The mirror image fails for Step with a zero gradient."
  },
  {
   "property": "C122",
   "status": "proved",
   "theorems": [
    "BeeDNN.C122_fit",
    "BeeDNN.C122_smooth",
    "BeeDNN.C122_none",
    "BeeDNN.C122_sgd",
    "BeeDNN.C122_step"
   ],
   "note": "optimizers not reset in between (reboost off, the default); patience cannot strike (see C57 for what happens then); gradients times the rates of the layers as in C95"
  },
  {
   "property": "C123",
   "status": "proved",
   "theorems": [
    "BeeDNN.C123_momentum",
    "BeeDNN.C123_nesterov",
    "BeeDNN.C123_best_exists",
    "BeeDNN.C123_converges"
   ],
   "note": "Over the reals; keep-best and reboost off; MomentumNg, whose first velocity is the first gradient, is not covered"
  },
  {
   "property": "C124",
   "status": "proved",
   "theorems": [
    "BeeDNN.C124_closer",
    "BeeDNN.C124_reported",
    "BeeDNN.C124_some_epoch"
   ],
   "note": "Over the reals; the losses reported are those of C108"
  },
  {
   "property": "C125",
   "status": "proved",
   "theorems": [
    "BeeDNN.C125_converges",
    "BeeDNN.C125_best"
   ],
   "note": "Over the reals; the curvature bounds are 1/K, 1, 1, 1, 1 for the distance losses, 1/2 for softmax, 1/4 for sigmoid"
  },
  {
   "property": "C126",
   "status": "proved",
   "theorems": [
    "BeeDNN.C126_predict",
    "BeeDNN.C126_training",
    "BeeDNN.C126_symmetric",
    "BeeDNN.C126_fit",
    "BeeDNN.C126_twins"
   ],
   "note": "Over the reals. Training: smooth activations and losses without kink, reboost off; for renumbered networks all samples in one batch (the random orders of two runs differ); for symmetric networks any batch size"
  },
  {
   "property": "C127",
   "status": "proved",
   "theorems": [
    "BeeDNN.C127_fit",
    "BeeDNN.C127_smooth",
    "BeeDNN.C127_none",
    "BeeDNN.C127_clip",
    "BeeDNN.C127_norm_clip",
    "BeeDNN.C127_decay",
    "BeeDNN.C127_penalty"
   ],
   "note": "Over the reals. Reboost off. L1 and L1L2 as gradient descent only while no parameter is zero; layers with true gradients for the penalties. No division by zero in the regularizer is assumed (RegFits)"
  },
  {
   "property": "C128",
   "status": "proved",
   "theorems": [
    "BeeDNN.C128_converges",
    "BeeDNN.C128_limit",
    "BeeDNN.C128_forgets"
   ],
   "note": "Over the reals; keep-best off. For the cross entropies as long as no prediction comes closer than eps to 0 or 1"
  },
  {
   "property": "C129",
   "status": "proved",
   "theorems": [
    "BeeDNN.C129_rounds",
    "BeeDNN.C129_sgd",
    "BeeDNN.C129_momentum",
    "BeeDNN.C129_fit_sgd"
   ],
   "note": "Over the reals; patience not reached (see C57, C96 for what happens then). The period is one more than the number set (disagreement recorded at C57)"
  },
  {
   "property": "C130",
   "status": "proved",
   "theorems": [
    "BeeDNN.C130_fit",
    "BeeDNN.C130_smooth",
    "BeeDNN.C130_class_mean",
    "BeeDNN.C130_descends",
    "BeeDNN.C130_class_mean_descends",
    "BeeDNN.C130_cross_entropy",
    "BeeDNN.C130_columns"
   ],
   "note": "Over the reals; one output column and labels as truths; reboost off. With cross entropies and with one column per class balancing does not do what it promises (C130_cross_entropy, C130_columns)"
  },
  {
   "property": "C131",
   "status": "proved",
   "theorems": [
    "BeeDNN.C131_bound",
    "BeeDNN.C131_predict",
    "BeeDNN.C131_class",
    "BeeDNN.C131_round",
    "BeeDNN.C131_reached",
    "BeeDNN.C131_activations"
   ],
   "note": "Over the reals (C112 bounds the rounding errors of float)"
  },
  {
   "property": "C132",
   "status": "proved",
   "theorems": [
    "BeeDNN.C132_layer",
    "BeeDNN.C132_network",
    "BeeDNN.C132_predict",
    "BeeDNN.C132_maxPool"
   ],
   "note": "Zero padding is left out, what it adds at the border does not move; maximum pooling is stated for the layer"
  },
  {
   "property": "C133",
   "status": "partial",
   "theorems": [
    "BeeDNN.C133_exact",
    "BeeDNN.C133_same_as_cpp",
    "BeeDNN.C133_unchanged_partial",
    "BeeDNN.C133_repeat_partial",
    "BeeDNN.C133_classes",
    "BeeDNN.C133_wrong"
   ],
   "note": "Partial: a model whose first layers are among HardTanh, HardELU, HardShrink, LeakyRELU, LeakyRELU256, RELU6 overwrites the input of the caller, and predicting again gives another result (C133_wrong); C133_exact says what is left in the input for every model. Flatten, RNN layers and rounding are not modelled"
  },
  {
   "property": "C134",
   "status": "partial",
   "theorems": [
    "BeeDNN.C134_same",
    "BeeDNN.C134_derivative_partial",
    "BeeDNN.C134_logit_wrong"
   ],
   "note": "Partial: the derivative of Logit is wrong on the whole domain (C134_logit_wrong). C134_same says exactly where the two libraries differ: Bipolar at 0, HardELU at -2 and HardShrink at 0.5 and -0.5"
  },
  {
   "property": "C135",
   "status": "partial",
   "theorems": [
    "BeeDNN.C135_step_partial",
    "BeeDNN.C135_descends_partial",
    "BeeDNN.C135_same_as_cpp_partial",
    "BeeDNN.C135_dropout_wrong",
    "BeeDNN.C135_noise_wrong"
   ],
   "note": "Partial: models with dropout, noise, LayerGlobalGain/GlobalBias, Logit, or a layer working in place behind Exponential are not covered (dropout and noise behind Exponential are trained wrongly: C135_dropout_wrong, C135_noise_wrong); gradients of time distributed layers are off by the factor pyRate; other optimizers are not modelled"
  },
  {
   "property": "C136",
   "status": "partial",
   "theorems": [
    "BeeDNN.C136_fit_partial",
    "BeeDNN.C136_descends_partial",
    "BeeDNN.C136_fit_predict_partial",
    "BeeDNN.C136_xavier",
    "BeeDNN.C136_forgets",
    "BeeDNN.C136_data_overwritten"
   ],
   "note": "Partial as C135; with the metrics \"accuracy\" a first layer working in place overwrites the training data after each epoch (C136_data_overwritten). Not modelled: loss values and accuracies collected, best model, callbacks"
  },
  {
   "property": "C137",
   "status": "proved",
   "theorems": [
    "BeeDNN.C137_same",
    "BeeDNN.C137_both",
    "BeeDNN.C137_places",
    "BeeDNN.C137_step",
    "BeeDNN.C137_momentum",
    "BeeDNN.C137_momentum_first",
    "BeeDNN.C137_adam",
    "BeeDNN.C137_adam_near",
    "BeeDNN.C137_adamW",
    "BeeDNN.C137_adamax",
    "BeeDNN.C137_nadam_first",
    "BeeDNN.C137_defaults",
    "BeeDNN.C137_names"
   ],
   "note": "Over the real numbers. Shapes that numpy would repeat are left out"
  },
  {
   "property": "C138",
   "status": "partial",
   "theorems": [
    "BeeDNN.C138_batches_partial",
    "BeeDNN.C138_fit_partial",
    "BeeDNN.C138_sgd"
   ],
   "note": "Same layers left out as in C135: dropout, noise, a single gain or bias, Logit, Exponential before a layer that works in place; time distributed layers with the factor pyRate. Over the real numbers"
  },
  {
   "property": "C139",
   "status": "partial",
   "theorems": [
    "BeeDNN.C139_confusion_partial",
    "BeeDNN.C139_raises",
    "BeeDNN.C139_single",
    "BeeDNN.C139_onehot",
    "BeeDNN.C139_fit_partial",
    "BeeDNN.C139_loss_divided"
   ],
   "note": "Violated in part: a class predicted beyond the largest label, a single output, or one-hot truths end in an exception (C139_raises, C139_single, C139_onehot); the loss is divided by the number of inputs (C139_loss_divided). Same models as in C138. Over the real numbers"
  },
  {
   "property": "C140",
   "status": "partial",
   "theorems": [
    "BeeDNN.C140_any_partial",
    "BeeDNN.C140_locked_partial",
    "BeeDNN.C140_one",
    "BeeDNN.C140_mismatch",
    "BeeDNN.C140_lost",
    "BeeDNN.C140_no_metrics"
   ],
   "note": "Violated with two threads or more: between test and assignments another thread can run, so the model kept can be worse than max_accuracy says (C140_mismatch), or the best be lost (C140_lost). Proved for one thread (C140_one) and for uninterrupted callbacks. Accuracies are arbitrary; output and saved files are left out"
  },
  {
   "property": "C141",
   "status": "partial",
   "theorems": [
    "BeeDNN.C141_forward_partial",
    "BeeDNN.C141_causal",
    "BeeDNN.C141_sizes",
    "BeeDNN.C141_gradient",
    "BeeDNN.C141_never_learns",
    "BeeDNN.C141_writes"
   ],
   "note": "Violated: back-propagation returns 1 - (g/2)^2 in the last frame, whatever input and weights (C141_gradient); with five of the eleven optimizers the weights never change (C141_never_learns). Proved: forward, causality, exceptions for unequal sizes, and that the other optimizers write to the cell. RNNCellNaive is left out. Over the real numbers"
  },
  {
   "property": "C142",
   "status": "proved",
   "theorems": [
    "BeeDNN.C142_classes",
    "BeeDNN.C142_rescale",
    "BeeDNN.C142_linear",
    "BeeDNN.C142_rising",
    "BeeDNN.C142_homogeneous",
    "BeeDNN.C142_relu"
   ],
   "note": "Over the real numbers: in float, softmax can make different outputs equal, and scaling by factors other than powers of two rounds. C142_relu shows that an activation that is not strictly increasing may change the class"
  },
  {
   "property": "C143",
   "status": "partial",
   "theorems": [
    "BeeDNN.C143_forward_partial",
    "BeeDNN.C143_backward_partial",
    "BeeDNN.C143_inverse",
    "BeeDNN.C143_empty",
    "BeeDNN.C143_flat",
    "BeeDNN.C143_refuses",
    "BeeDNN.C143_channels"
   ],
   "note": "Proved for batches that are not empty (forward, any dimensions) and for samples of two dimensions (backward). Violated: empty batches raise an exception, back-propagation raises one for samples that are rows already, and gives a wrong number of samples for images with channels (C143_empty, C143_flat, C143_channels)"
  },
  {
   "property": "C144",
   "status": "partial",
   "theorems": [
    "BeeDNN.C144_load_partial",
    "BeeDNN.C144_same_as_cpp",
    "BeeDNN.C144_short_images",
    "BeeDNN.C144_short_labels",
    "BeeDNN.C144_header"
   ],
   "note": "Proved: all pixels and labels of complete files, agreement with the C++ reader after flattening and division by 256, and exceptions for image files that are missing or too short. Violated: label files that are too short are accepted (C144_short_labels), and the header is not looked at (C144_header). Closing of the files is not modelled"
  },
  {
   "property": "C145",
   "status": "proved",
   "theorems": [
    "BeeDNN.C145_build",
    "BeeDNN.C145_predict",
    "BeeDNN.C145_dropout",
    "BeeDNN.C145_noise"
   ],
   "note": "LayerBias is left out: its bias gets its size in the first forward pass only. Dropout and noise layers are described by what they do in training (C145_dropout, C145_noise)"
  },
  {
   "property": "C146",
   "status": "proved",
   "theorems": [
    "BeeDNN.C146_program",
    "BeeDNN.C146_regression",
    "BeeDNN.C146_regression_limit"
   ],
   "note": "Real numbers. The optimizer part holds while the samples are regular (no kink is hit), as in C122. Validation data, regularizers and class balancing are as the constructor sets them (off)"
  },
  {
   "property": "C147",
   "status": "partial",
   "theorems": [
    "BeeDNN.C147_repeat_partial",
    "BeeDNN.C147_conv"
   ],
   "note": "Proved for networks without convolution layers, whose gradients depend on the number of samples in the batch: there the first step of SGD is exactly k times as long (C147_conv)"
  },
  {
   "property": "C148",
   "status": "proved",
   "theorems": [
    "BeeDNN.C148_same",
    "BeeDNN.C148_evaluate",
    "BeeDNN.C148_one_output"
   ],
   "note": "C148_same for training (with C98 for the success of both), C148_evaluate for computing loss and accuracy, C148_one_output why two outputs or more are needed; in real arithmetic; balancing and early stopping by patience excluded as in C98"
  },
  {
   "property": "C149",
   "status": "proved",
   "theorems": [
    "BeeDNN.C149_append",
    "BeeDNN.C149_continue"
   ],
   "note": "C149_continue for programs of any number of calls with the trainer as the call before has left it; C149_append for the trainings; in real arithmetic. Each call draws its own order of the samples, so the claim is that the run is a training of that length, not that it equals a run with other random numbers. Other optimizers start afresh in every call, as with reboost (C129)"
  }
 ]
}
