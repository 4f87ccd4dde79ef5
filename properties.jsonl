{"id": "C01", "title": "Matrix cell addressing is injective and in bounds", "statement": "On an R x C matrix, reading (r,c) after writing (r,c) returns the written value, writing (r,c) changes no other cell, and every access with 0<=r<R, 0<=c<C stays inside the R*C buffer; any access outside that range is undefined behaviour.", "quantifier": "for every shape, every pair of cells, every buffer content and every written value", "why_tests_cant": "a test touches a few cells of a few shapes; the no-other-cell clause quantifies over all pairs of cells of all shapes", "anchors": ["src/Matrix.h: Matrix::operator()(Index,Index), Matrix::operator()(Index)"]}
{"id": "C02", "title": "Matrix product is the mathematical product", "statement": "A*B on matrices with A.cols()==B.rows() returns an A.rows() x B.cols() matrix whose (i,j) entry is the sum over k of A(i,k)*B(k,j) accumulated in increasing k from zero, never touches memory outside the three buffers, and never depends on the uninitialised contents of the freshly allocated result; with mismatching inner sizes the call has no defined result.", "quantifier": "for every pair of conforming matrices of every size (including zero sizes), every garbage content of the allocation, any scalar arithmetic", "why_tests_cant": "sizes and contents are unbounded, and independence from garbage memory is not observable by running once", "anchors": ["src/Matrix.h: Matrix::operator*=(const Matrix&), Matrix::operator*(const Matrix&)"]}
{"id": "C03", "title": "Transposition is an involution compatible with the product", "statement": "m.transpose() has swapped sizes and (c,r) entry equal to m(r,c); transposing twice gives back the matrix; the transpose of A*B equals B.transpose()*A.transpose() when scalar multiplication commutes.", "quantifier": "for every matrix and every conforming pair of matrices", "why_tests_cant": "universally quantified algebraic law over all shapes", "anchors": ["src/Matrix.h: Matrix::transpose"]}
{"id": "C04", "title": "Elementwise operators and reductions", "statement": "Sum, difference, scalar scaling, cwiseProduct, cwiseMin, cwiseMax of equally sized matrices are computed cell by cell and keep the shape; sum() is the left-to-right sum of all cells, maxCoeff() of a non-empty matrix is an upper bound of all cells that is attained; for unequal shapes the binary operators have no defined result.", "quantifier": "for every shape and every content", "why_tests_cant": "all shapes and all contents", "anchors": ["src/Matrix.h: operator+=, operator-=, operator*=(T), cwiseProduct, cwiseMax, cwiseMin, sum, squaredNorm, maxCoeff"]}
{"id": "C05", "title": "Resize keeps or reallocates the storage predictably", "statement": "resize(r,c) to a shape with the same total size keeps all cells in the same row-major order and, for a view, keeps aliasing the same memory; resize to a different total size allocates a new exclusive buffer, after which the object is no longer a view and the memory it viewed is unchanged.", "quantifier": "for every memory state, every matrix object (owner or view) and every requested shape", "why_tests_cant": "depends on the ownership state reached through an arbitrary history", "anchors": ["src/Matrix.h: Matrix::resize"]}
{"id": "C06", "title": "Matrix memory safety over every operation history", "statement": "Starting from an empty program state, any sequence of construct, copy-construct, view creation, row view, resize, assign and destroy operations whose views are not used after their owner released the storage never frees a block twice, never frees a block that is not owned, each live owning object holds its own live block, and after destroying all objects no block is left allocated.", "quantifier": "for every finite sequence of operations", "why_tests_cant": "unbounded histories; leaks and double frees are history properties", "anchors": ["src/Matrix.h: constructors, destructor, resize, operator=, row, createView"]}
{"id": "C07", "title": "Views write through, copies are independent", "statement": "Assigning a row of matching width to m.row(i) overwrites exactly row i of m and nothing else; a copy-constructed or assigned matrix never shares storage with its source, so later writes to one are never seen through the other.", "quantifier": "for every memory state, matrix, row index and later write", "why_tests_cant": "aliasing is a property of all later writes", "anchors": ["src/Matrix.h: Matrix::row, Matrix(const Matrix&), operator=", "src/Matrix.cpp: createView, viewRow, viewResize"]}
{"id": "C08", "title": "Using a view after its owner reallocated is undefined", "statement": "A view stays valid exactly as long as the storage it refers to is alive: once the owning matrix is resized to a different total size or destroyed, any read through the view is undefined behaviour; in particular assigning a strictly smaller row view of a matrix to the matrix itself (m = m.row(0)) reads freed memory.", "quantifier": "for every memory state with a view on an owner", "why_tests_cant": "undefined behaviour may look right in a test run", "anchors": ["src/Matrix.h: Matrix::operator=, Matrix::row, Matrix::resize"]}
{"id": "C09", "title": "Shuffling keeps every sample and keeps samples paired with their truth", "statement": "A random permutation of n indexes contains every index 0..n-1 exactly once whatever numbers the random generator delivers; applying the same permutation to data and truth gives matrices that contain the same (sample, truth) pairs, each as often as before, with no row lost, duplicated or mixed.", "quantifier": "for every size, every random stream, every data and truth contents", "why_tests_cant": "the random stream is an unbounded adversary", "anchors": ["src/Matrix.cpp: randPerm, applyRowPermutation", "src/NetTrain.cpp: train_one_epoch"]}
{"id": "C10", "title": "Row-wise and column-wise reductions", "statement": "rowWiseSum/rowWiseMean/rowWiseSumSq return one value per row, colWiseSum/colWiseMean/colWiseSumSq one value per column, equal to the corresponding sum, mean or sum of squares; colWiseMin/colWiseMax of a matrix with at least one row return the column minimum/maximum; rowWiseAdd adds the same row vector to every row, rowWiseMult/rowWiseDivide scale row i by entry i.", "quantifier": "for every shape and content", "why_tests_cant": "all shapes and contents", "anchors": ["src/Matrix.cpp: rowWiseSum, rowWiseMean, rowWiseSumSq, colWiseSum, colWiseSumSq, colWiseMean, colWiseMin, colWiseMax, rowWiseAdd, rowWiseMult, rowWiseDivide"]}
{"id": "C11", "title": "Argmax returns the first position of the maximum", "statement": "argmax of a non-empty row vector returns an in-range index whose entry is >= every entry and > every earlier entry; rowsArgmax returns one column with the argmax of each row.", "quantifier": "for every row vector and every matrix over a linear order", "why_tests_cant": "ties and orderings of arbitrary length vectors", "anchors": ["src/Matrix.cpp: argmax, rowsArgmax"]}
{"id": "C12", "title": "Clamp confines every entry", "statement": "After clamp(m,lo,hi) with lo<=hi every entry lies in [lo,hi], entries already inside are unchanged, and clamping again changes nothing.", "quantifier": "for every matrix and bounds", "why_tests_cant": "all contents", "anchors": ["src/Matrix.cpp: clamp"]}
{"id": "C13", "title": "Row slices, column extraction and decimation select the right cells", "statement": "viewRow(m,a,b) shows rows a..b-1, copyInto writes a block of rows at the given row and nothing else, colExtract(m,a,b) gives columns a..b-1 of every row, decimate(m,k) gives rows 0,k,2k,...; none of them accesses memory outside the matrices under their stated preconditions, and cutting a matrix into consecutive row blocks and copying them back restores it.", "quantifier": "for every matrix, range, ratio", "why_tests_cant": "all shapes and ranges", "anchors": ["src/Matrix.cpp: viewRow, copyInto, colExtract, decimate"]}
{"id": "C14", "title": "Per-channel add and per-channel mean", "statement": "channelWiseAdd adds weight(h) to every pixel of channel h of every sample and touches nothing else; channelWiseMean returns for every channel the mean over samples, rows and columns.", "quantifier": "for every number of samples, channels, rows, columns and content", "why_tests_cant": "all 4D shapes; a 1x1 image hides the scaling error", "anchors": ["src/Matrix.cpp: channelWiseAdd, channelWiseMean", "src/LayerChannelBias.cpp"]}
{"id": "C15", "title": "Reversing data reverses it", "statement": "reverseData(p,n) leaves the n values in reverse order, applying it twice restores the data, and it only touches the n values.", "quantifier": "for every length and content", "why_tests_cant": "all lengths; symmetric test data hides the defect", "anchors": ["src/Matrix.cpp: reverseData", "src/LayerRandomFlip.cpp"]}
{"id": "C16", "title": "Text round trip through strings", "statement": "fromString(toString(m)) has the shape of m and the printed values of m.", "quantifier": "for every matrix", "why_tests_cant": "all shapes; square examples may hide swapped sizes", "anchors": ["src/Matrix.cpp: toString, fromString"]}
{"id": "C17", "title": "Text round trip through files", "statement": "fromFile(toFile(m)) has the shape of m and the printed values of m and writes only inside the allocated matrix.", "quantifier": "for every matrix", "why_tests_cant": "heap overflow need not show in a test run", "anchors": ["src/Matrix.cpp: toFile, fromFile"]}
{"id": "C18", "title": "Quick Bernoulli draws only 0/1 with the announced probability", "statement": "setQuickBernoulli(m,p) fills m with zeros and ones; of the 65536 equally likely low 16-bit draws exactly floor(65536 p) give a one for 0<=p<=1, so p=0 gives all zeros, p=1 all ones, and the error on the probability is below 1/65536.", "quantifier": "for every probability in [0,1], every random stream and shape", "why_tests_cant": "a statistical test cannot settle an exact count or every p", "anchors": ["src/Matrix.cpp: setQuickBernoulli"]}
{"id": "C19", "title": "Dense layer computes the affine map", "statement": "The forward pass of a dense layer maps every sample x to x*W+b, keeping the number of samples.", "quantifier": "for every batch, weight and bias of conforming sizes", "why_tests_cant": "all sizes and contents", "anchors": ["src/LayerDense.cpp: forward", "src/LayerDot.cpp: forward"]}
{"id": "C20", "title": "Dense layer gradients are the batch-averaged true gradients", "statement": "After backpropagation the weight and bias gradients are the derivatives of (1/N) * sum <g, output> with respect to weight and bias, and the input gradient is the derivative of <g, output> with respect to the input; a layer marked as first leaves the input gradient untouched.", "quantifier": "for every batch, output gradient, weight, bias and every perturbation direction", "why_tests_cant": "finite differences only sample directions and points", "anchors": ["src/LayerDense.cpp: backpropagation", "src/LayerDot.cpp: backpropagation"]}
{"id": "C21", "title": "Inference treats every sample independently", "statement": "Predicting a batch gives row by row exactly the result of predicting each sample alone, so results do not depend on batch size or on the other samples in the batch, for networks made of dense, dot, bias, gain, activation, softmax, pooling, padding and convolution layers in test mode.", "quantifier": "for every network, every batch, every way to cut the batch", "why_tests_cant": "all batches and cuts", "anchors": ["src/Net.cpp: predict", "src/Layer*.cpp: forward"]}
{"id": "C22", "title": "Activation layer applies the function and the chain rule elementwise", "statement": "An activation layer maps every entry x to f(x) and sends the gradient g back as g*f'(x) evaluated at the layer input, keeping the shape.", "quantifier": "for every shape, content, gradient and activation", "why_tests_cant": "all shapes and contents", "anchors": ["src/LayerActivation.cpp: forward, backpropagation"]}
{"id": "C23", "title": "Each activation's derivation is the derivative of its function", "statement": "For every activation that the library offers, the value returned by derivation(x) is the derivative of apply at x, at every point where apply is differentiable.", "quantifier": "for every activation in the table and every real x off the kinks", "why_tests_cant": "finite differences at sample points cannot cover a continuum", "anchors": ["src/Activations.cpp: all Activation* classes"]}
{"id": "C24", "title": "Activation ranges and monotonicity", "statement": "Bounded activations stay inside their announced range for every input (sigmoid-like in (0,1), tanh-like in (-1,1), ReLU6 in [0,6], hard variants in closed ranges) and the monotone ones are monotone.", "quantifier": "for every real input", "why_tests_cant": "a continuum of inputs", "anchors": ["src/Activations.cpp"]}
{"id": "C25", "title": "Activation names round trip", "statement": "Every name listed as available creates an activation whose name() is that name, no name is listed twice, and an unlisted name yields no activation.", "quantifier": "for every string", "why_tests_cant": "the unlisted-name half quantifies over all strings", "anchors": ["src/Activations.cpp: get_activation, list_activations_available"]}
{"id": "C26", "title": "Softmax gives a probability distribution", "statement": "Every output row of the softmax layer has strictly positive entries summing to 1, is unchanged when a constant is added to the input row, preserves the order of the entries (so the predicted class is the argmax of the input); softmin is softmax of the negated input.", "quantifier": "for every non-empty row of real numbers", "why_tests_cant": "continuum of inputs", "anchors": ["src/LayerSoftmax.cpp: forward", "src/LayerSoftmin.cpp: forward"]}
{"id": "C27", "title": "Softmax with cross entropy backpropagates p - t", "statement": "For a one-hot or soft truth t and softmax output p with entries away from 0 and 1 by at least 1e-8, back-propagating the categorical cross entropy gradient through the softmax layer gives the input gradient p - t, which is the true gradient of the composed loss for truths summing to one.", "quantifier": "for every input row and truth", "why_tests_cant": "continuum of inputs", "anchors": ["src/LayerSoftmax.cpp: backpropagation", "src/Loss.cpp: LossCategoricalCrossEntropy::compute_gradient"]}
{"id": "C28", "title": "Max pooling forward", "statement": "Every output pixel of MaxPool2D is the maximum of its input window of the same sample and channel, all accesses are in bounds, and every output pixel is written.", "quantifier": "for every geometry whose factors divide or not the sizes, every content above the internal minus-infinity constant", "why_tests_cant": "all geometries and contents", "anchors": ["src/LayerMaxPool2D.cpp: forward"]}
{"id": "C29", "title": "Max pooling backward routes the gradient to the winning pixel", "statement": "Back-propagation through MaxPool2D gives every input pixel the sum of the output gradients of the windows of the same sample and channel it won, zero elsewhere.", "quantifier": "for every batch size, channel count, geometry and content", "why_tests_cant": "single-sample single-channel tests hide the defect", "anchors": ["src/LayerMaxPool2D.cpp: backpropagation"]}
{"id": "C30", "title": "Global max pooling", "statement": "GlobalMaxPool2D outputs per sample and channel the maximum over the plane and back-propagates the gradient to exactly that pixel.", "quantifier": "for every geometry and content above the internal minus-infinity constant", "why_tests_cant": "all geometries and contents", "anchors": ["src/LayerGlobalMaxPool2D.cpp"]}
{"id": "C31", "title": "Average pooling is the window mean and its backward pass is its adjoint", "statement": "AveragePooling2D and GlobalAveragePooling2D output the window mean; for every gradient g and input x, <g, forward(x)> = <backward(g), x>.", "quantifier": "for every geometry, input and gradient", "why_tests_cant": "all geometries and contents", "anchors": ["src/LayerAveragePooling2D.cpp", "src/LayerGlobalAveragePooling2D.cpp"]}
{"id": "C32", "title": "Zero padding surrounds with zeros and its backward pass crops", "statement": "ZeroPadding2D copies each plane into the centre of a plane enlarged by the border on each side and fills the border with zeros; the backward pass returns exactly the centre, hence is a left inverse and the adjoint of the forward pass.", "quantifier": "for every geometry, border, content", "why_tests_cant": "all geometries and contents", "anchors": ["src/LayerZeroPadding2D.cpp"]}
{"id": "C33", "title": "Convolution geometry is memory safe", "statement": "For kernel sizes that fit in the image and stride at least 1, every index computed by the forward and backward convolution passes lies inside the image, column and output buffers, and every output is written.", "quantifier": "for every image size, channel count, kernel size, stride", "why_tests_cant": "all geometries; out-of-bounds reads may not crash", "anchors": ["src/LayerConvolution2D.cpp: im2col, col2im, im2col_LUT, col2im_LUT, create_im2col_LUT"]}
{"id": "C34", "title": "Fast and slow convolution paths agree", "statement": "The lookup-table implementation gives exactly the same result as the direct one, for the forward column transform and for the backward transform.", "quantifier": "for every geometry, batch and content", "why_tests_cant": "tests compare one geometry", "anchors": ["src/LayerConvolution2D.cpp: im2col vs im2col_LUT, col2im vs col2im_LUT"]}
{"id": "C35", "title": "Convolution forward is the valid cross-correlation", "statement": "Output (sample, outChannel, r, c) equals the sum over input channels and kernel positions of weight * input at (r*stride+kr, c*stride+kc).", "quantifier": "for every geometry with odd kernel sizes, batch, weights", "why_tests_cant": "all geometries and contents", "anchors": ["src/LayerConvolution2D.cpp: forward"]}
{"id": "C36", "title": "Convolution gradients", "statement": "The weight gradient is the derivative of <g, output> with respect to the weights; the input gradient is proportional to the derivative with respect to the input with the constant 1/(kernelRows*kernelCols*outChannels).", "quantifier": "for every geometry, batch, weights, gradient", "why_tests_cant": "all geometries and contents", "anchors": ["src/LayerConvolution2D.cpp: backpropagation"]}
{"id": "C37", "title": "Dropout", "statement": "In test mode or with rate 0 the dropout layer is the identity; in training every output entry is either 0 or input/(1-rate), and back-propagation multiplies by exactly the mask used by the preceding forward pass.", "quantifier": "for every input, rate in [0,1), random stream, call history", "why_tests_cant": "random stream and history are unbounded", "anchors": ["src/LayerDropout.cpp"]}
{"id": "C38", "title": "Noise and augmentation layers do nothing at inference", "statement": "GaussianNoise, UniformNoise, GaussianDropout and RandomFlip return their input unchanged in test mode; during training RandomFlip mirrors the images it selected.", "quantifier": "for every input, parameter and random stream", "why_tests_cant": "random streams; a train/test mode mix-up shows only statistically", "anchors": ["src/LayerGaussianNoise.cpp", "src/LayerUniformNoise.cpp", "src/LayerGaussianDropout.cpp", "src/LayerRandomFlip.cpp"]}
{"id": "C39", "title": "Gaussian dropout works on batches", "statement": "In training GaussianDropout multiplies every entry of a batch of any number of samples by a random factor and keeps the shape.", "quantifier": "for every batch size", "why_tests_cant": "single-row tests hide the shape error", "anchors": ["src/LayerGaussianDropout.cpp: forward"]}
{"id": "C40", "title": "CRelu keeps the whole information and back-propagates the sum rule", "statement": "CRelu outputs relu(x) and relu(-x) side by side; input equals the difference of the two halves; back-propagation gives g1 where x>0, -g2 where x<0.", "quantifier": "for every batch and gradient", "why_tests_cant": "all shapes and contents", "anchors": ["src/LayerCRelu.cpp"]}
{"id": "C41", "title": "Gated activations", "statement": "A gated activation layer splits each sample into two halves a,b and outputs act1(a)*act2(b); its backward pass is the product rule.", "quantifier": "for every even width, batch and gradient", "why_tests_cant": "all shapes and contents", "anchors": ["src/LayerGatedActivation.cpp"]}
{"id": "C42", "title": "Time-distributed layers act frame by frame", "statement": "TimeDistributedBias/Dot/Dense apply the same bias/dot/dense map to each frame of each sample, keep the number of samples and give frameCount*outFrameSize columns.", "quantifier": "for every number of samples, frames, frame sizes", "why_tests_cant": "all shapes", "anchors": ["src/LayerTimeDistributedBias.cpp", "src/LayerTimeDistributedDot.cpp", "src/LayerTimeDistributedDense.cpp"]}
{"id": "C43", "title": "Recurrent layers use their weights and all frames", "statement": "Running a recurrent layer forward does not change its weights, and its output depends on all frames of the sequence including the last.", "quantifier": "for every layer state and sequence", "why_tests_cant": "random re-initialisation looks like poor training in a test", "anchors": ["src/LayerRNN.cpp: forward, init", "src/LayerSimpleRNN.cpp", "src/LayerSimplestRNN.cpp"]}
{"id": "C44", "title": "Cloned layers predict identically", "statement": "The clone of a layer has the same parameters and gives the same output as the original in test mode for every input, and later changes to one do not affect the other.", "quantifier": "for every layer, parameter value, input, later update", "why_tests_cant": "all inputs and updates", "anchors": ["src/Layer*.cpp: clone"]}
{"id": "C45", "title": "Bias, gain and affine layers", "statement": "Bias adds its vector to every sample, Gain multiplies columnwise, Affine does both, GlobalBias/GlobalGain/GlobalAffine use one scalar; the bias gradients are the batch-averaged true gradients and the input gradients are the true ones.", "quantifier": "for every batch, parameter, gradient", "why_tests_cant": "all shapes and contents", "anchors": ["src/LayerBias.cpp", "src/LayerGain.cpp", "src/LayerAffine.cpp", "src/LayerGlobalBias.cpp", "src/LayerGlobalGain.cpp", "src/LayerGlobalAffine.cpp"]}
{"id": "C46", "title": "Parametric rectifiers", "statement": "PRelu, PELU, TERELU and RRelu (test mode) compute their documented functions per column and back-propagate their derivative with respect to the input.", "quantifier": "for every batch, parameter, gradient", "why_tests_cant": "all contents", "anchors": ["src/LayerPRelu.cpp", "src/LayerPELU.cpp", "src/LayerTERELU.cpp", "src/LayerRRelu.cpp"]}
{"id": "C47", "title": "A network predicts by composing its layers in order", "statement": "predict applies the layers one after the other in insertion order; with one layer it is that layer; predicting does not depend on what the output matrix contained before.", "quantifier": "for every network, input and previous output content", "why_tests_cant": "networks of any depth", "anchors": ["src/Net.cpp: predict, add"]}
{"id": "C48", "title": "Copying a network", "statement": "Assigning a network gives the same predictions for every input and shares no layer with the source; the source is unchanged; self-assignment leaves the network unchanged.", "quantifier": "for every network and input", "why_tests_cant": "all inputs, aliasing", "anchors": ["src/Net.cpp: operator="]}
{"id": "C49", "title": "Predicted classes", "statement": "predict_classes returns one label per sample: the first argmax of the output row for more than one output, the rounded output for a single output.", "quantifier": "for every output matrix", "why_tests_cant": "all contents", "anchors": ["src/Net.cpp: predict_classes"]}
{"id": "C50", "title": "Every epoch uses every sample exactly once", "statement": "During one epoch the mini-batches presented to the optimizer are consecutive, non-overlapping, non-empty, of at most the batch size, only the last may be smaller, together contain each (shuffled) sample exactly once, and the loop terminates.", "quantifier": "for every number of samples and positive batch size", "why_tests_cant": "all size combinations", "anchors": ["src/NetTrain.cpp: train_one_epoch, fit"]}
{"id": "C51", "title": "Keep-best returns the best network seen", "statement": "With keep-best and validation data the network left after fit is, among the networks obtained at the end of each epoch, the first with the highest validation accuracy (classification) or lowest validation loss (regression), whatever trajectory the optimizer took.", "quantifier": "for every number of epochs and every sequence of scores", "why_tests_cant": "unbounded trajectories", "anchors": ["src/NetTrain.cpp: fit"]}
{"id": "C52", "title": "Training never touches freed layers", "statement": "During fit every gradient and weight that is updated belongs to a layer of the current network.", "quantifier": "for every training history including patience restarts", "why_tests_cant": "use after free may go unnoticed", "anchors": ["src/NetTrain.cpp: fit, set_net, collect_all_weights_biases, train_batch", "src/Net.cpp: operator="]}
{"id": "C53", "title": "Training history has one entry per epoch", "statement": "After fit with E epochs the loss and accuracy histories have E entries (validation ones too when validation data is set); epoch callbacks are called once per epoch with increasing epoch numbers.", "quantifier": "for every number of epochs and configuration", "why_tests_cant": "unbounded epochs", "anchors": ["src/NetTrain.cpp: fit, get_train_loss, get_validation_loss"]}
{"id": "C54", "title": "Loss evaluation does not depend on the batch size", "statement": "The loss and accuracy reported on a data set are the mean per-sample loss and the percentage of correct samples, for every validation batch size.", "quantifier": "for every data set and batch size", "why_tests_cant": "all batch sizes", "anchors": ["src/NetTrain.cpp: compute_loss_accuracy"]}
{"id": "C55", "title": "Reported accuracies are percentages of correct predictions", "statement": "The online accuracy of an epoch lies in [0,100] and is 100 times the number of correctly classified samples divided by the number of samples.", "quantifier": "for every batch sequence, predictions and truths", "why_tests_cant": "all sequences", "anchors": ["src/NetTrain.cpp: add_online_statistics, train_one_epoch, fit"]}
{"id": "C56", "title": "Class balancing weights", "statement": "With class balancing, the weight of a class present in the data is total/(nbClass*count), so that the weights summed over all samples equal the number of samples.", "quantifier": "for every label vector in which all classes occur", "why_tests_cant": "all label vectors", "anchors": ["src/NetTrain.cpp: update_class_weight", "src/Loss.cpp: balance_with_weight"]}
{"id": "C57", "title": "Patience and reboost schedule", "statement": "When the score does not improve for more than the patience, the learning rate is halved and the counter restarts; with reboost every N epochs optimizers are re-initialised at a fixed period; between those events the learning rate is constant and positive.", "quantifier": "for every sequence of scores", "why_tests_cant": "unbounded sequences", "anchors": ["src/NetTrain.cpp: fit"]}
{"id": "C58", "title": "Copying a trainer copies its settings", "statement": "After assigning a trainer all hyper-parameters of the copy equal those of the source.", "quantifier": "for every pair of trainers", "why_tests_cant": "all hyper-parameter values; equal defaults hide the defect", "anchors": ["src/NetTrain.cpp: operator="]}
{"id": "C59", "title": "All trainable parameters are trained", "statement": "Every weight and bias of every trainable layer of the network is paired with its own gradient and its own optimizer and is updated once per batch, from the first batch on.", "quantifier": "for every network", "why_tests_cant": "depends on lazily created parameters", "anchors": ["src/NetTrain.cpp: set_net, collect_all_weights_biases, train_batch"]}
{"id": "C60", "title": "Losses are non-negative and vanish exactly on equality", "statement": "Each distance loss (MSE, MAE, MCE, L1, L2, L3, Huber, pseudo-Huber, log-cosh) is >=0 for all predictions and zero exactly when prediction equals truth; cross entropies are >=0 for predictions in [0,1].", "quantifier": "for every prediction and truth", "why_tests_cant": "continuum", "anchors": ["src/Loss.cpp"]}
{"id": "C61", "title": "Loss gradients are gradients of the losses", "statement": "compute_gradient returns a positive constant times the gradient of the per-sample loss, the constant depending only on the loss and the number of outputs.", "quantifier": "for every prediction and truth off the kinks", "why_tests_cant": "continuum", "anchors": ["src/Loss.cpp: compute_gradient"]}
{"id": "C62", "title": "Loss, optimizer, regularizer and initializer names round trip", "statement": "Each listed name creates an object with that name, names are pairwise distinct, and unknown names create nothing.", "quantifier": "for every string", "why_tests_cant": "quantifies over all strings", "anchors": ["src/Loss.cpp: create_loss", "src/Optimizer.cpp: create_optimizer", "src/Regularizer.cpp: create_regularizer", "src/Initializers.cpp"]}
{"id": "C63", "title": "SGD-like optimizer steps", "statement": "SGD subtracts learningRate*gradient, Momentum accumulates a decayed velocity, Nesterov and MomentumNg their published look-ahead variants, None leaves the parameters unchanged; closed forms for any number of steps hold.", "quantifier": "for every gradient sequence of any length", "why_tests_cant": "unbounded sequences", "anchors": ["src/Optimizer.cpp: OptimizerSGD, OptimizerMomentum, OptimizerNesterov, OptimizerMomentumNg, OptimizerNone"]}
{"id": "C64", "title": "Optimizers act per coordinate and keep shapes", "statement": "One optimizer step changes coordinate i using only the history of weight i and gradient i, and keeps the shape of the weights.", "quantifier": "for every optimizer, shape, history", "why_tests_cant": "unbounded histories", "anchors": ["src/Optimizer.cpp: optimize"]}
{"id": "C65", "title": "Zero gradients do not move the parameters", "statement": "Starting from a freshly initialised optimizer, steps with zero gradient leave the parameters unchanged.", "quantifier": "for every optimizer and number of steps", "why_tests_cant": "all optimizers and histories", "anchors": ["src/Optimizer.cpp"]}
{"id": "C66", "title": "RPROP step sizes stay bounded", "statement": "For RPROP- and iRPROP- every per-coordinate step size stays in [1e-6,50] forever, so one step never moves a coordinate by more than 50, and the step moves against the sign of the gradient.", "quantifier": "for every gradient sequence", "why_tests_cant": "unbounded sequences", "anchors": ["src/Optimizer.cpp: OptimizerRPROPm, OptimizeriRPROPm"]}
{"id": "C67", "title": "Adaptive optimizers keep non-negative second moments and bounded steps", "statement": "Adagrad, RMSProp, Adam, AdamW, Amsgrad, Nadam keep non-negative second moments (no NaN from the square root), Amsgrad's and Adagrad's never decrease, Adamax's infinity norm dominates the gradient, and the first Adam step moves each coordinate by at most the learning rate.", "quantifier": "for every gradient sequence", "why_tests_cant": "unbounded sequences", "anchors": ["src/Optimizer.cpp"]}
{"id": "C68", "title": "Optimizer initialisation forgets history; clones behave alike", "statement": "After init(rows,cols) an optimizer behaves as a new one with the same settings; a clone created from an optimizer is of the same kind with the same settings.", "quantifier": "for every optimizer, history, later gradients", "why_tests_cant": "unbounded histories", "anchors": ["src/Optimizer.cpp: init, clone"]}
{"id": "C69", "title": "Gradient clipping bounds", "statement": "GradientClip leaves every gradient entry in [-p,p] and unchanged if it already was; GradientClipTanh leaves it in (-p,p) with the same sign; GradientNormClip leaves the norm at most p and the direction unchanged.", "quantifier": "for every gradient and positive parameter", "why_tests_cant": "continuum", "anchors": ["src/Regularizer.cpp: RegularizerGradientClip, RegularizerGradientClipTanh, RegularizerGradientNormClip"]}
{"id": "C70", "title": "L1/L2 regularizers add the penalty gradient", "statement": "The L1, L2 and L1L2 regularizers add to the gradient exactly the derivative of their penalty at the current weights and never change the weights.", "quantifier": "for every weight and gradient", "why_tests_cant": "continuum", "anchors": ["src/Regularizer.cpp: RegularizerL1, RegularizerL2, RegularizerL1L2"]}
{"id": "C71", "title": "Min-max scaling", "statement": "After fit, the transformed fitted data lies in [0,1], each non-constant column attains 0 and 1, and order within columns is kept.", "quantifier": "for every non-empty data set", "why_tests_cant": "all data sets; constant columns are the corner", "anchors": ["src/MinMaxScaler.cpp"]}
{"id": "C72", "title": "Standard scaling", "statement": "After fit, each transformed non-constant column of the fitted data has mean 0 and variance 1 and each constant column becomes 0.", "quantifier": "for every non-empty data set", "why_tests_cant": "all data sets", "anchors": ["src/StandardScaler.cpp"]}
{"id": "C73", "title": "KMeans assigns the nearest reference", "statement": "predict_classes gives each sample the class of a reference vector at minimal distance (the first in case of ties).", "quantifier": "for every sample, references and loss", "why_tests_cant": "continuum", "anchors": ["src/KMeans.cpp: predict_classes, compute_dist"]}
{"id": "C74", "title": "KMeans updates centroids to means and keeps the best", "statement": "A training pass replaces each reference vector that won at least one sample by the mean of its samples; with keep-best the references after fit are the best seen.", "quantifier": "for every data set and number of epochs", "why_tests_cant": "unbounded runs", "anchors": ["src/KMeansTrain.cpp"]}
{"id": "C75", "title": "Confusion matrix counts every sample once", "statement": "The entries of the confusion matrix sum to the number of samples, row i sums to the number of samples of class i, the diagonal sum divided by the number of samples is the accuracy, which lies in [0,100]; no access outside the matrix for reference labels in range.", "quantifier": "for every pair of label vectors", "why_tests_cant": "all label vectors", "anchors": ["src/Metrics.cpp: compute"]}
{"id": "C76", "title": "Normalised confusion matrix and balanced accuracy", "statement": "If every class occurs, each row of the normalised confusion matrix sums to 100 and the balanced accuracy is the mean of its diagonal, in [0,100], and equals 100 exactly when all predictions are right.", "quantifier": "for every pair of label vectors in which every class occurs", "why_tests_cant": "all label vectors; absent classes are the corner", "anchors": ["src/Metrics.cpp: compute"]}
{"id": "C77", "title": "The JSON writer produces well-formed JSON", "statement": "For every properly nested sequence of enter/leave/add calls with names and strings free of quotes, backslashes and control characters, the produced text is a well-formed JSON object with exactly the given structure.", "quantifier": "for every call tree", "why_tests_cant": "unbounded nesting", "anchors": ["src/JsonFile.cpp"]}
{"id": "C78", "title": "Strings are written so that the JSON stays well-formed", "statement": "Any string value can be written and the text remains valid JSON; leaving more sections than entered is harmless.", "quantifier": "for every string and call sequence", "why_tests_cant": "all strings", "anchors": ["src/JsonFile.cpp: add_string, leave_section"]}
{"id": "C79", "title": "Saved models determine the network", "statement": "Two networks with the same saved text have the same layers with the same parameters.", "quantifier": "for every pair of networks", "why_tests_cant": "pairs of networks", "anchors": ["src/NetUtil.cpp: save"]}
{"id": "C80", "title": "MNIST files are decoded correctly", "statement": "For a well-formed file pair the reader delivers the announced number of samples with pixel value byte/256 in [0,1) at row-major position and the label byte; big-endian sizes are decoded correctly; wrong sizes or missing files are rejected.", "quantifier": "for every file content", "why_tests_cant": "all file contents", "anchors": ["src/MNISTReader.cpp"]}
{"id": "C81", "title": "CIFAR-10 files are decoded correctly", "statement": "For six complete batch files the reader delivers 50000 training and 10000 validation samples in file order with label and pixel/255, and reports that it has data.", "quantifier": "for every file content", "why_tests_cant": "all file contents", "anchors": ["src/CIFAR10Reader.cpp", "src/DataSource.cpp"]}
{"id": "C82", "title": "Data sources report the loaded data", "statement": "has_data/has_train_data/has_validation_data tell whether the corresponding matrices were loaded; data_size is the number of columns.", "quantifier": "for every load outcome", "why_tests_cant": "all outcomes", "anchors": ["src/DataSource.cpp", "src/CsvFileReader.cpp", "src/MNISTReader.cpp", "src/CIFAR10Reader.cpp"]}
{"id": "C83", "title": "Concurrent meta-optimisation keeps the best model", "statement": "With any number of training threads and any interleaving, the recorded best score never gets worse and at the end equals the best score reported by any thread.", "quantifier": "for every interleaving of the worker threads", "why_tests_cant": "schedules cannot be enumerated by tests", "anchors": ["src/MetaOptimizer.cpp: new_epoch, run_thread"]}
{"id": "C84", "title": "Meta-optimiser variations are well defined", "statement": "Each run uses either the original or one of the registered variations of each layer and of the optimizer; without variations the network is unchanged, and the chosen optimizer variation is the one used by that run.", "quantifier": "for every set of variations and random stream", "why_tests_cant": "random streams", "anchors": ["src/MetaOptimizer.cpp: apply_variations"]}
{"id": "C85", "title": "Initializers respect shape and bounds", "statement": "Each named initializer yields a matrix of inputSize x outputSize; uniform ones have all entries within the announced bound, Zeros and Ones are constant; the result does not depend on earlier contents.", "quantifier": "for every size, random stream", "why_tests_cant": "random streams", "anchors": ["src/Initializers.cpp: compute"]}
{"id": "C86", "title": "Layer factory", "statement": "Each supported layer name creates the layer of that type with the given arguments; other names are looked up as activations, and names unknown to both yield no usable layer.", "quantifier": "for every string and arguments", "why_tests_cant": "all strings", "anchors": ["src/LayerFactory.cpp: create"]}
{"id": "C87", "title": "Time-distributed gradients are true gradients", "statement": "For the time-distributed dot and dense layers the computed weight gradient is the gradient of the batch average of the inner product of the incoming gradient with the output, the input gradient is the gradient of that inner product, and the bias gradient is the gradient of the same batch average.", "quantifier": "all batch sizes, frame counts, frame sizes, output frame sizes, weights, inputs and incoming gradients", "why_tests_cant": "It is a statement about derivatives over all shapes; a numerical check at sample points cannot tell a true gradient from one scaled by the frame count when tests use one frame.", "anchors": ["src/LayerTimeDistributedDense.cpp", "src/LayerTimeDistributedDot.cpp", "src/LayerTimeDistributedBias.cpp"]}
{"id": "C88", "title": "Parameter gradients of the parametric rectifiers", "statement": "The parameter gradients computed by PRelu, PELU and TERELU are the gradients, with respect to their parameters, of the batch average of the inner product of the incoming gradient with the output.", "quantifier": "all batches, parameters and incoming gradients", "why_tests_cant": "A derivative claim over real inputs; also a test in which the incoming gradient is all ones passes for a layer that ignores the incoming gradient.", "anchors": ["src/LayerPRelu.cpp", "src/LayerPELU.cpp", "src/LayerTERELU.cpp"]}
{"id": "C89", "title": "Randomised rectifier in training", "statement": "RRelu in training multiplies each negative entry by its own drawn slope and back-propagation uses exactly these slopes, so it returns the gradient of the preceding forward pass; the slope distribution is only defined if 1/alpha1 <= 1/alpha2, and back-propagation before any training pass fails.", "quantifier": "all batches, draws and slope parameters", "why_tests_cant": "The draws are random, so a test sees a few draws only; the precondition of the distribution is undefined behaviour which a test need not expose.", "anchors": ["src/LayerRRelu.cpp:40-72"]}
{"id": "C90", "title": "Recurrent back-propagation uses the incoming gradient", "statement": "Back-propagation through a recurrent layer computes gradients of the loss: they depend linearly on the incoming gradient (zero for a zero incoming gradient) and work for every batch size.", "quantifier": "all sequences, states, batch sizes and incoming gradients", "why_tests_cant": "Training with such gradients still changes the weights, so a test that only watches a loss cannot tell.", "anchors": ["src/LayerRNN.cpp:43-65", "src/LayerSimpleRNN.cpp:51-54", "src/LayerSimplestRNN.cpp:48-61"]}
{"id": "C91", "title": "Training a perceptron is gradient descent on the error", "statement": "A trainer with the SGD optimizer, no regularizer and one of the nine distance losses accepts any network of dense, dot-product, bias, activation, gated activation, CReLU, pooling by averages, zero padding and time distributed dot-product layers; train_one_batch then never faults, whatever the number and sizes of the batches, and each batch subtracts from every weight and bias matrix exactly the learning rate times the gradient of the mean error of that batch with respect to that matrix, wherever the activations and the loss are differentiable.", "quantifier": "for every depth, all widths, weights, biases and activations, every one of the nine losses, every learning rate, any number of batches of any sizes with any samples and truths, whatever the fresh memory holds", "why_tests_cant": "A finite-difference test probes a few weights of a few networks at a few points; a wrong factor, a transposed product or an off-by-one layer index shows only for particular widths, depths or losses, and exactness of the derivative is not observable numerically.", "anchors": ["src/NetTrain.cpp:140-160", "src/NetTrain.cpp:556-621", "src/LayerDense.cpp", "src/LayerDot.cpp", "src/LayerActivation.cpp", "src/Optimizer.cpp:92-125", "src/Loss.cpp"]}
{"id": "C92", "title": "Fitting a feed-forward network never faults and is stochastic gradient descent", "statement": "fit on a network of any of fifteen kinds of layers with any of the twelve losses runs to the end without fault for every optimizer; with SGD, a distance loss, layers whose gradients are exact, and differentiable activations, each epoch presents all samples in some order in batches and each batch moves every weight and bias by the learning rate times the gradient of the error of the batch; the network left is that of the last epoch, or of one of the epochs if the best is kept.", "quantifier": "for all depths, widths, parameters, data, batch sizes, numbers of epochs and random orders", "why_tests_cant": "whole training runs over all networks, data and random orders", "anchors": ["src/NetTrain.cpp: fit, set_net, train_one_epoch, train_batch", "src/LayerDense.cpp", "src/Optimizer.cpp"]}
{"id": "C93", "title": "Training references never increases the quantisation error", "statement": "With the default loss and the whole data set as batch, no epoch of KMeansTrain::fit increases the sum over the samples of the squared distance to the nearest reference of their class.", "quantifier": "for every data set, references and number of epochs", "why_tests_cant": "all data sets and unbounded runs", "anchors": ["src/KMeansTrain.cpp: fit"]}
{"id": "C94", "title": "The CSV reader opens the file it is given and its companions", "statement": "Given the name of any of the four files p{train|test}q{data|truth}r, the CSV reader reads training data, training truth, validation data and validation truth from the four corresponding files.", "quantifier": "for every file name", "why_tests_cant": "all file names, including folders that contain one of the words", "anchors": ["src/CsvFileReader.cpp: replace_last, load"]}
{"id": "C95", "title": "Every batch moves every parameter against its gradient", "statement": "For every feed-forward network of dense, dot-product, bias, activation, gated, CReLU, channel bias, convolution, average pooling, global average pooling, zero padding, time distributed and softmax layers and for each of the twelve losses, training with SGD never faults, and each batch changes every weight and bias matrix by minus the learning rate times a positive factor times the gradient of the mean error of the batch, wherever the network and the loss are differentiable. The factor depends on the kinds and sizes of the layers only (and, for kernels of convolutions, on the number of samples); it is one if there are no convolutions, image biases and time distributed biases.", "quantifier": "for every depth, all sizes, parameters and activations, every loss, every learning rate, any number of batches or epochs of any sizes with any samples and truths", "why_tests_cant": "all networks, sizes and data; a factor that depends on sizes is not seen when the tested size makes it one", "anchors": ["src/NetTrain.cpp:556-621", "src/LayerConvolution2D.cpp", "src/LayerChannelBias.cpp", "src/LayerAveragePooling2D.cpp", "src/LayerTimeDistributedDense.cpp", "src/Loss.cpp", "src/Optimizer.cpp"]}
{"id": "C96", "title": "Training a softmax classifier descends the cross entropy", "statement": "A network that ends with a softmax layer, trained with SGD and the categorical cross entropy on truths that sum to one, or the sparse categorical cross entropy on class numbers, trains without fault, and each batch is one step of gradient descent for the mean of minus the logarithm of the probability of the true class, as long as no prediction of the batch is within eps of 0 or 1.", "quantifier": "for every depth, all sizes, parameters and smooth activations, every number of classes and samples, every learning rate, any number of batches or epochs", "why_tests_cant": "neither the loss gradient nor the softmax backward pass is a derivative on its own; that their product is one holds for all predictions or not at all", "anchors": ["src/LayerSoftmax.cpp", "src/Loss.cpp", "src/NetTrain.cpp:556-621"]}
{"id": "C97", "title": "A small enough step makes the error smaller", "statement": "For every feed-forward network of the kinds of C95, every loss and every batch at which the network is differentiable, there is a learning rate such that with it and with every smaller one, a batch of training with SGD makes the mean error of this batch strictly smaller, unless the gradients of all weights and biases are zero.", "quantifier": "for every depth, all sizes, parameters and activations, every loss, every batch, every sufficiently small learning rate", "why_tests_cant": "all parameter matrices move at the same time, by steps computed with different factors; a test sees single networks and learning rates", "anchors": ["src/NetTrain.cpp:556-621", "src/Optimizer.cpp", "src/Loss.cpp"]}
{"id": "C98", "title": "Networks of nearly all layer classes train without fault", "statement": "A network built from new layers of any class but Gaussian dropout and the recurrent ones can be trained by fit (without class balancing and early stop) with every optimizer, loss and regularizer and can predict, provided the sizes fit together, a random flip comes first and max pooling behind the first layer gets values above -10^38 from the layer before: no assertion fails, no access is out of bounds, no deleted layer is used; the network keeps its layer classes and all sizes, and one callback is made per epoch.", "quantifier": "for every depth, sequence of layer classes, all sizes, data, batch size, number of epochs, random draws and contents of fresh memory", "why_tests_cant": "combinations of layers, orders of samples, random draws and uninitialised memory are unlimited; a test sees single networks and runs", "anchors": ["src/NetTrain.cpp:395-621", "src/Net.cpp", "src/Layer*.cpp", "src/Optimizer.cpp", "src/Regularizer.cpp"]}
{"id": "C99", "title": "Rounding errors of products, sums and dense layers are bounded", "statement": "With IEEE 754 single precision, rounding to nearest: the product of two matrices, the sum and the mean of the coefficients, and the forward and backward pass of a dense layer of finite floats give finite floats, as long as the absolute values of the terms of each sum add up to at most 2^126; the error of every result is at most (number of terms + 2)*2^-23 of the sum of the absolute values of its terms, plus a multiple of the smallest float.", "quantifier": "for all sizes up to 2^23, all finite floats, all contents of fresh memory", "why_tests_cant": "a test compares a few results with a tolerance; here the tolerance follows from the order of operations for all inputs", "anchors": ["src/Matrix.h", "src/Matrix.cpp", "src/LayerDense.cpp"]}
{"id": "C100", "title": "Softmax of finite floats is finite and ordered", "statement": "In floating point arithmetic softmax and softmin of finite inputs never give an infinity or NaN: the results are floats in [0,1], in the order of the inputs, the largest is at least 2^-24, and each row adds up to 1 up to (C+1)*2^-22. One infinite input makes all results of its row NaN.", "quantifier": "for all numbers of samples and classes, all finite inputs, every exponential that is monotone and exact at 0", "why_tests_cant": "overflow and 0/0 depend on single extreme inputs that tests do not hit; order and sum concern all inputs", "anchors": ["src/LayerSoftmax.cpp", "src/LayerSoftmin.cpp"]}
{"id": "C101", "title": "Class numbers kept as floats are exact", "statement": "Class numbers up to 2^24 keep their value in a float matrix and different ones stay different; rowsArgmax of a float matrix with up to 2^24 columns gives the first position of the largest value of each row. Beyond 2^24 neighbouring class numbers fall together; a row that starts with NaN gives class 0.", "quantifier": "for all sizes up to 2^24 and all finite floats", "why_tests_cant": "tests use few classes", "anchors": ["src/Matrix.cpp", "src/NetTrain.cpp"]}
{"id": "C102", "title": "Gradient descent in floating point arithmetic", "statement": "A step of SGD in single precision gives w - lr*d up to 2^-24|w| + 2^-22|lr*d|; with a rate of at most 1 and gradients up to 2^50, weights never leave [-2^126, 2^126], however many steps are taken; every step that is not zero changes the weight (false: where the steps are at most 2^-27 of the weight, no number of steps changes it).", "quantifier": "for all matrix sizes, weights, gradients, rates and numbers of steps", "why_tests_cant": "overflow or standstill after many steps is a property of all executions", "anchors": ["src/Optimizer.cpp:141-149"]}
{"id": "C103", "title": "Adam never produces infinities or NaN", "statement": "Adam with its default beta1 and beta2, a rate of at most 1 and gradients up to 2^50 keeps weights that are at most 2^126 finite and at most 2^126: the second moment never overflows, 1-beta^t never rounds to 0, and nothing is divided by 0.", "quantifier": "for all matrix sizes, weights, gradients, rates up to 1 and numbers of steps", "why_tests_cant": "the moments and powers of beta are rounded at each of arbitrarily many steps", "anchors": ["src/Optimizer.cpp:396-460"]}
{"id": "C104", "title": "The sample programs run to their end", "statement": "On well-formed MNIST files (any number of images, labels 0 to 9) the four MNIST sample programs, on complete CIFAR-10 files the CIFAR-10 sample program, and always the xor and sine samples run to their end without a failed assertion or a wrong memory access: they load the data, build the network, train it for exactly the stated number of epochs, predict, and print the accuracies (or rounded outputs, or largest error) of the very network they trained. If a file is missing or has a wrong header, they stop with exit code -1 and do nothing else.", "quantifier": "for all file contents, numbers of images, random numbers, uninitialised memory and iteration orders", "why_tests_cant": "a run covers one data set and one sequence of random numbers, and wrong memory accesses need not show", "anchors": ["samples/sample_classification_MNIST.cpp:42-101", "samples/sample_classification_MNIST_poolmax2D.cpp:42-102", "samples/sample_classification_MNIST_TimeSeries.cpp:43-104", "samples/sample_classification_MNIST_allconvolutional.cpp:43-118", "samples/sample_classification_CIFAR10.cpp:57-116", "samples/sample_classification_xor.cpp:30-65", "samples/sample_regression_sin.cpp:32-81"]}
{"id": "C105", "title": "The Python binding returns the outputs of the network", "statement": "A network built by name through the Python binding (create, add_layer) and asked any number of times to predict writes, for each sample, the output of the network for that sample into the output buffer and nothing else, whatever memory and earlier calls held.", "quantifier": "for all lists of layer names, input sizes, numbers of samples, buffers and sequences of calls", "why_tests_cant": "each test is one network and one call; uninitialised memory and buffer overruns need not show", "anchors": ["python_binding/BeeDNNLib.cpp:31-55", "src/Net.cpp:65-74", "src/LayerFactory.cpp:42-115"]}
{"id": "C106", "title": "Every activation is the function its name promises", "statement": "The object that get_activation creates for a name computes, at every number, the commonly accepted function of that name: for 60 of the 64 names exactly (over the reals, with float constants by their decimal value), for Hann, LecunTanh, Selu and SoftSteps up to the rounding of their constants (relative error at most 1e-5).", "quantifier": "for all 64 names and for all real numbers of the domain of the function (0<x<1 for Logit; the step itself excepted for BinaryStep, Bipolar, ThresholdedRelu, whose value there is stated separately)", "why_tests_cant": "A test compares an activation with a table of a few points; a wrong branch, constant or sign between the points goes unseen, and the derivative test only says that two functions of the same object fit each other, not that they are the function meant.", "anchors": ["src/Activations.cpp:22-1634", "src/Activations.cpp:1636-1833"]}
{"id": "C107", "title": "Results do not depend on uninitialised memory", "statement": "Two runs of the same program that get the same random numbers and the same data have the same results, whatever values they find in memory that was allocated and never written: making a network from new layers gives equal layers, training it gives an equal trainer (losses, accuracies, epochs) and equal layers after every epoch and at the end (all members but gradients and the scratch memory of convolutions, which are written before they are read), and predicting gives equal matrices.", "quantifier": "for all networks of 31 of the 34 layer classes that fit together, all optimizers, losses, regularizers, schedules, data sets, random draws, and all contents of fresh memory in both runs", "why_tests_cant": "A test runs in one process with one memory; fresh pages are mostly zero, so that a read before a write goes unseen until the allocator reuses a block.", "anchors": ["src/Matrix.h:45-52", "src/NetTrain.cpp:180-560", "src/Net.cpp:30-74", "src/LayerConvolution2D.cpp:40-330"]}
{"id": "C108", "title": "Reported training losses are means over the samples", "statement": "The training loss reported for an epoch is the mean over all samples of the loss of the sample, each measured with the network as it is when the sample is presented; every sample counts once.", "quantifier": "for all networks of the modelled layers, all losses, optimizers, data sets, batch sizes, numbers of epochs and shuffles", "why_tests_cant": "A test compares one loss with one number from the same program; that the value is divided by the batch size once too often only shows when it is compared with its meaning for all batch sizes.", "anchors": ["src/NetTrain.cpp:478", "src/NetTrain.cpp:622-628"]}
{"id": "C109", "title": "Keep-best never leaves a worse network", "statement": "With keep-best selected, the network left by fit is at least as good, on the data that it was selected with, as the network before training and as that after any of the epochs: not a higher loss in regression, not a lower accuracy in classification.", "quantifier": "for all networks of the modelled layers, all losses, optimizers, training and validation data, batch sizes and numbers of epochs", "why_tests_cant": "Trainings in tests make the network better, so that it does not show whether the original would have been kept.", "anchors": ["src/NetTrain.cpp:436-450", "src/NetTrain.cpp:478-525"]}
{"id": "C110", "title": "Settings of the trainer are those that training uses", "statement": "Every weight and bias matrix is trained by an optimizer of the name chosen, with the learning rate, momentum and decay set in the trainer, or the default of that optimizer where the setting is -1; this holds from set_net to the end of the training (the learning rate up to the halvings of the patience schedule). A learning rate set later is in force at once and is what get_learningrate returns. Regularizers and losses that were set are reported by their names and parameters, and a new loss has no class weights of an earlier training.", "quantifier": "for all optimizer, loss and regularizer names, all settings, networks, data sets and numbers of epochs", "why_tests_cant": "Settings do not show in the results of a short training; a test would have to know every default and every path on which optimizers are created, cloned or initialised again.", "anchors": ["src/NetTrain.cpp:140-225", "src/NetTrain.cpp:270-275", "src/Optimizer.cpp:18-46", "src/Regularizer.cpp:20-230"]}
{"id": "C111", "title": "Helper objects of trainers and KMeans models are owned", "statement": "Every loss, regularizer and optimizer object belongs to exactly one trainer or KMeans model: no program that constructs, sets up, trains, assigns and destroys trainers and KMeans models uses or deletes a helper object that does not exist any more, what is done to one trainer or model changes nothing of another, and nothing is leaked.", "quantifier": "for all programs of any length over any number of trainers and KMeans models that use them between construction and destruction and with existing names", "why_tests_cant": "Double frees and leaks depend on the order of construction, assignment and destruction of several objects; there are infinitely many orders, and a leak or a use of freed memory often shows no symptom in a test.", "anchors": ["src/NetTrain.cpp:27-194", "src/NetTrain.cpp:270-275", "src/NetTrain.h:30-110", "src/KMeans.cpp:20-59", "src/KMeansTrain.cpp:150-245"]}
{"id": "C112", "title": "Predictions in float arithmetic are those of the exact network up to a bound", "statement": "The numbers that prediction computes with floats through all layers of a network of dense, dot, bias and activation layers are finite and differ from those of the network with exact arithmetic by at most a bound that is computed from the weights before any prediction is made; where the best class wins by more than twice the bound, the predicted class is the exact one.", "quantifier": "for all depths, widths below 2^23, float weights, batches of float inputs within the given range, and all contents of uninitialised memory", "why_tests_cant": "Rounding errors depend on every weight and input and add up through the layers; a test sees the error of a few inputs only and cannot give a bound for all of them.", "anchors": ["src/Net.cpp:65-99", "src/LayerDense.cpp:53-59", "src/LayerDot.cpp:52-56", "src/LayerBias.cpp:40-46", "src/LayerActivation.cpp:34-41", "src/Matrix.h:685"]}
{"id": "C113", "title": "Training a KMeans model does not depend on uninitialised memory", "statement": "Two runs of the same program that makes a KMeans model, sets its sizes and trains it on the same data with the same random numbers have the same outcome, whatever the memory holds that set_sizes and fit obtain: the same references and classes, the same accuracies, or the same failure.", "quantifier": "for all contents of fresh memory in both runs, numbers of references, inputs, samples and epochs, batch sizes, losses that measure distances, random numbers, with and without validation data and keep-best", "why_tests_cant": "A test runs on one content of memory, often zeros; the content at a customer's site differs, and the dependence shows only when the uninitialised references score well or lie far away.", "anchors": ["src/KMeans.cpp:45-52", "src/KMeans.cpp:71-102", "src/KMeansTrain.cpp:126-245"]}
{"id": "C114", "title": "The KMeans sample runs to its end", "statement": "On well-formed MNIST files (any number of images, labels 0 to 9) the program sample_KMeans_MNIST runs to its end without a failed assertion or a wrong memory access: it loads the data, trains one hundred references for ten epochs and prints the accuracies that the trained references have on the training and validation images. If a file is missing or has a wrong header, it stops with exit code -1.", "quantifier": "for all file contents, numbers of images, random numbers and contents of uninitialised memory", "why_tests_cant": "a run covers one data set, one sequence of random numbers and one content of memory; on memory of zeros the program shows nothing unusual", "anchors": ["samples/sample_KMeans_MNIST.cpp:37-81", "src/KMeans.cpp:45-102", "src/KMeansTrain.cpp:126-245"]}
{"id": "C115", "title": "The meta-optimizer trains as many models as asked and reports the better ones", "statement": "From a trainable network, a trainer and variations whose layers fit in their places, MetaOptimizer::fit runs to its end: every round trains one model per thread, each to the last of its epochs, with an optimizer among those registered; the function for better models gets exactly the models that beat all before in the round, each with the layers of the original or of a variation and with its accuracy on the validation data; the network of the user is unchanged and no model is leaked. The program sample_MetaOptimizer_MNIST thereby runs to its end on well-formed MNIST files with any number of processors, and stops with exit code -1 without them.", "quantifier": "for all networks, data, variations, numbers of threads and rounds, random draws and contents of uninitialised memory", "why_tests_cant": "a run covers one sequence of draws and one interleaving of the threads; that the first run ignores the registered optimizers shows in no result that a test could compare", "anchors": ["src/MetaOptimizer.cpp:41-170", "src/MetaOptimizer.h:54", "samples/sample_MetaOptimizer_MNIST.cpp:39-93"]}
{"id": "C116", "title": "Gradient descent fits a dense layer to the least squares solution", "statement": "For a network of one dense layer, a squared loss (MeanSquaredError or L2), SGD and all samples in one batch, with a positive learning rate of at most the reciprocal of the curvature (the mean of the squared lengths of the samples plus one, divided by the number of outputs for MeanSquaredError): the error after each epoch is at most that before, and after T epochs of fit it exceeds the error of any weights and biases by at most their squared distance from the initial ones over 2 T times the learning rate; so fit comes as close to the least squares solution as wanted. With keep-best and no validation data the same holds with T-1 epochs. For one sample, each epoch multiplies the error by the square of one minus learning rate times curvature, so beyond twice the bound the error grows without limit.", "quantifier": "for all numbers of inputs, outputs, samples and epochs, all data, initial weights, learning rates in the range, random draws and orders of the samples", "why_tests_cant": "a regression test fits one data set; convergence for all data, with a rate and a bound on the learning rate, is a statement about all epochs and all data", "anchors": ["src/NetTrain.cpp:395-592", "src/LayerDense.cpp:53-85", "src/Optimizer.cpp:115-150", "src/Loss.cpp:45-78", "src/Loss.cpp:241-272"]}
{"id": "C117", "title": "Trainers use the data they were given, as long as the caller leaves the matrices alone", "statement": "NetTrain and KMeansTrain keep the addresses of the matrices given to set_train_data and set_validation_data, and operator= copies the addresses. In every program with any number of trainers, networks and matrices in which no matrix is changed or destroyed while a trainer keeps its address (for instance: none after it was given to a trainer), every step has the same outcome as if the matrices had been copied. Without the condition: fit after one of them was destroyed is undefined behaviour, and fit after a change trains on the changed data.", "quantifier": "for all programs (sequences of making, changing and destroying matrices and trainers, settings, assignments, trainings), all data and networks", "why_tests_cant": "reading a destroyed matrix mostly gives the old values, so a test passes by luck; the programs and the order of their steps are unbounded", "anchors": ["src/NetTrain.cpp:131-135", "src/NetTrain.cpp:383-409", "src/NetTrain.cpp:440-446", "src/KMeansTrain.cpp:114-135"]}
{"id": "C118", "title": "Training references comes to an end", "statement": "With the default loss and the whole data set as batch (the default), the references of KMeansTrain::fit no longer change after n^N epochs, for n references and N training samples: every reference that wins samples of its class is then their mean, and any larger number of epochs gives the same references and classes. (With batch size 1 this is false: a reference ends as one of the samples.)", "quantifier": "for all data up to 1e18, classes, numbers of references and samples, draws of the first references and shuffles, and numbers of epochs above n^N", "why_tests_cant": "a test runs few epochs on one data set; that no data set makes the references cycle for ever needs the argument over all assignments", "anchors": ["src/KMeansTrain.cpp:126-244"]}
{"id": "C119", "title": "With full batches the order of the samples does not matter", "statement": "Training with all samples in one batch, by gradient descent (SGD) or any other of the fifteen optimizers, gives the same network whatever the order of the samples in the training data and whatever the random numbers of the shuffles: two trainings of the same network with the same settings on the same samples in two orders end with the same weights and biases, and so with the same outputs for every input.", "quantifier": "for all feed-forward networks of smooth layers, smooth distance losses, data, orders, random numbers, numbers of epochs, optimizers and settings", "why_tests_cant": "there are N! orders; that no order matters, for any data and network, follows only from the error being a sum over the samples", "anchors": ["src/NetTrain.cpp:395-554", "src/NetTrain.cpp:556-600", "src/NetTrain.cpp:742-760"]}
{"id": "C120", "title": "Dropout keeps the expected value", "statement": "In training with a rate r strictly between 0 and 1, the average of every output entry of a dropout layer over all equally likely low-16-bit draws is the input entry times floor((1-r)*65536)/65536/(1-r): exactly the input if (1-r)*65536 is an integer, otherwise smaller by at most the fraction 1/(65536*(1-r)). The same holds for the back-propagated gradient. Entries are dropped independently of each other. A linear unit behind the layer therefore computes on average what it computes in prediction.", "quantifier": "for every rate in (0,1), every shape, every input and gradient, all draws and all previous contents of the mask and of the output", "why_tests_cant": "the average runs over 65536^(N*C) draws; a statistical test can neither settle an exact mean nor independence", "anchors": ["src/LayerDropout.cpp: forward", "src/LayerDropout.cpp: backpropagation", "src/Matrix.cpp: setQuickBernoulli"]}
{"id": "C121", "title": "Symmetries of the optimizers", "statement": "Step, RPROP- and iRPROP- depend on the signs of the gradients only. No optimizer without weight decay has a preferred origin: shifted weights with the same gradients end shifted by the same amount. Every optimizer trains the mirror image (negated weights and gradients) to the mirror image. Adagrad, RMSProp, Adam, AdamW, AMSGrad, Nadam and Adamax do not depend on the units of the gradient: gradients multiplied by a common positive factor give the same weights, as long as they are not tiny.", "quantifier": "for every optimizer, every matrix shape, every initial weights, every sequence of gradients of any length", "why_tests_cant": "two whole training runs have to agree for every sequence of gradients", "anchors": ["src/Optimizer.cpp"]}
{"id": "C122", "title": "Training with any optimizer is the rule of that optimizer", "statement": "NetTrain::fit trains by the published rule of the chosen optimizer: at any time in any epoch every weight and every bias of the network is what the rule for a single number, with the settings of the trainer or the defaults of the optimizer, makes of its first value and the gradients of the errors of all batches so far. No memory of the optimizer is mixed up between parameters, lost between epochs or changed by evaluations and copies of the best network.", "quantifier": "for every feed-forward network of the fifteen kinds of layers, all fifteen optimizers, all twelve losses, all data, numbers of epochs and batch sizes, with or without keeping the best network", "why_tests_cant": "the memory of one optimizer per parameter matrix is carried through all batches and epochs of a run; a mix-up shows only as slightly worse training", "anchors": ["src/NetTrain.cpp:395-650", "src/NetTrain.cpp:742-770", "src/Optimizer.cpp"]}
{"id": "C123", "title": "Momentum and Nesterov train a dense layer to the least squares solution", "statement": "A network of one dense layer, trained by fit with MeanSquaredError or L2 and all samples in one batch, approaches the best linear model also with the optimizers Momentum and Nesterov. There is a best linear model. For a momentum from 0 below 1 and a learning rate up to (1 - momentum)/L (Momentum) or 1/L (Nesterov), L being the mean squared length of the samples with a 1 for the bias times the factor of the loss, the error after T epochs exceeds the least error by at most a constant divided by T, where the constant is given by the distance and the error of the original network. With Momentum the error is never above that of the original network. So for SGD, Momentum and Nesterov alike, enough epochs bring the error as close to the least one as wanted.", "quantifier": "for all numbers of inputs, outputs, samples and epochs, all data, all initial weights, all learning rates and momenta in the ranges, and all orders of the samples", "why_tests_cant": "A test trains on one data set and looks at one number; the guarantee is about all data, all starting points and all lengths of training, and momentum methods can oscillate or diverge for settings no test has tried.", "anchors": ["src/Optimizer.cpp:115-297", "src/NetTrain.cpp:395-650", "src/NetTrain.cpp:742-770", "src/LayerDense.cpp"]}
{"id": "C124", "title": "Training in batches finds a linear model that explains the data", "statement": "A network of one dense layer is trained by fit with SGD and MeanSquaredError or L2, in batches of any size and with any shuffles, on data that some linear model explains exactly. If the learning rate times the squared length of every sample (with a 1 for the bias, times the factor of the loss) is at most 1, then no batch takes the weights and biases further away from any model that explains the data, and every batch brings the squared distance down by at least twice the learning rate times the error on that batch. So the training losses reported over all epochs add up to at most a constant that does not depend on the number of epochs, and some epoch of E reports a loss of at most this constant over E.", "quantifier": "for all numbers of inputs, outputs, samples and epochs, all batch sizes, all shuffles, all data that a linear model explains, all initial weights and learning rates in the range", "why_tests_cant": "Mini-batch training is a random process: a test sees one shuffle of one data set. The bound holds for every shuffle and every data set, however long the training.", "anchors": ["src/NetTrain.cpp:395-650", "src/NetTrain.cpp:742-770", "src/Optimizer.cpp:115-152", "src/LayerDense.cpp"]}
{"id": "C125", "title": "Gradient descent trains linear, logistic and softmax models to the least error", "statement": "A dense layer with a smooth convex loss (MeanSquaredError, L2, LogCosh, Huber, PseudoHuber), a dense layer followed by softmax with a categorical cross entropy, or a dense layer followed by a sigmoid with the binary cross entropy is trained by fit with SGD on all samples at once. If the learning rate times the curvature of the loss times the mean squared length of the samples (with a 1 for the bias) is at most 1, then the error never grows and after E epochs it exceeds that of any other weights and biases by at most their squared distance from the original ones over 2 E times the learning rate. For the cross entropies this holds as long as no prediction comes closer than eps to 0 or 1, and that is certain if the predictions of a best model are far enough from 0 and 1.", "quantifier": "for all numbers of inputs, outputs, classes, samples and epochs, all data, all initial weights and learning rates in the range, all rival models", "why_tests_cant": "A test sees one training run; that the limit is the best of all models, and how fast it is reached, is a statement about all models and all data.", "anchors": ["src/NetTrain.cpp:395-650", "src/Loss.cpp", "src/LayerDense.cpp", "src/LayerSoftmax.cpp", "src/Optimizer.cpp:115-152"]}
{"id": "C126", "title": "Hidden units have no names: renumbering them changes neither predictions nor training, and equal units stay equal", "statement": "If the hidden units of a network are renumbered (the columns of one weight matrix with their biases, and the rows of the next), predictions stay the same; trained with the same settings on all samples at once, with any optimizer, both networks give the same up to that renumbering. A symmetry of the network that goes into fit is never broken, with any batch size and any random numbers of the shuffles: two hidden units that start with the same weights and biases and that the next dense layer treats alike still are so after any training.", "quantifier": "for all networks of the fifteen kinds of layers, all renumberings, data, settings, optimizers, batch sizes and epochs", "why_tests_cant": "The symmetry is about all networks, all permutations of their units and all training histories; a test compares a few numbers after a few steps, up to rounding.", "anchors": ["src/NetTrain.cpp:395-650", "src/LayerDense.cpp", "src/LayerActivation.cpp", "src/Optimizer.cpp", "src/Net.cpp"]}
{"id": "C127", "title": "Training with a regularizer: penalties are descended together with the error, and clipped gradients bound every step", "statement": "With any of the seven regularizers, fit runs without fault and every parameter follows the rule of the optimizer, fed with what the regularizer has made of the gradient of each batch and of the parameter as it is then. With plain gradient descent: L1, L2 and L1L2 make every batch a step of gradient descent for the error plus a penalty for all weights and biases; L2 makes parameters decay by the factor 1 - rate * lambda per batch; with the three ways of clipping no parameter moves further than rate * bound per batch, and with GradientNormClip no whole matrix does; None is as good as no regularizer.", "quantifier": "for all networks of the fifteen kinds of layers, all fifteen optimizers, all regularizers and parameters, all data, batch sizes and numbers of epochs", "why_tests_cant": "The claims are about all training histories and all parameters of all networks; a test looks at a handful of steps of one network.", "anchors": ["src/NetTrain.cpp:395-650", "src/Regularizer.cpp", "src/Optimizer.cpp"]}
{"id": "C128", "title": "Linear models with the regularizer L2 are trained geometrically to the one best solution, whatever the start", "statement": "Trained by fit with plain gradient descent on all samples at once and the regularizer L2 (which penalises weights and biases), a linear model with any smooth convex loss, a softmax classifier or a logistic model never increases the sum of error and penalty; there is exactly one best choice of weights and biases, and for a learning rate up to the reciprocal of the curvature every epoch makes the squared distance to it, and the excess over any other choice, smaller by the factor 1 - rate * lambda. So two trainings from different starts and with different random numbers end up together.", "quantifier": "for all data, sizes, starts, random numbers, penalties lambda > 0, learning rates up to the bound and numbers of epochs", "why_tests_cant": "The rate of convergence and the uniqueness of the limit are statements about all data sets, all starting points and all numbers of epochs.", "anchors": ["src/NetTrain.cpp:395-650", "src/Regularizer.cpp", "src/Optimizer.cpp", "src/LayerDense.cpp", "src/Loss.cpp"]}
{"id": "C129", "title": "Training with reboost is training in rounds, each of which starts the optimizer afresh", "statement": "With reboost switched on, fit of any feed-forward network of the supported kinds, with any optimizer, loss and regularizer, runs without fault and trains in rounds of a fixed number of epochs: within a round every weight and bias follows the rule of the optimizer from its value at the start of the round, with the same settings throughout and with no memory of the rounds before. For plain gradient descent this makes no difference at all; with one batch per epoch and rounds of one epoch both momentum optimizers become plain gradient descent.", "quantifier": "for all networks, data, optimizers, losses, regularizers, values of reboost, batch sizes, numbers of epochs and random numbers", "why_tests_cant": "That nothing of the optimizer's memory survives into the next round must hold for every optimizer, every state it can be in and every number of rounds.", "anchors": ["src/NetTrain.cpp:539-549", "src/NetTrain.cpp:395-650", "src/Optimizer.cpp"]}
{"id": "C130", "title": "Training with class balancing is training for the class-weighted error", "statement": "With class balancing, fit of any network of the supported kinds with one output, with labels as truths, any of the nine distance losses, any optimizer and any regularizer, runs without fault and follows the rule of the optimizer with the gradients of the weighted error, in which a sample counts N/(K*count) times when count of all N samples carry its label. Over all data this error is the mean over the classes of the mean error in each class, so a rare class counts as much as a frequent one; with plain gradient descent every batch, and with one batch every epoch, is a step of gradient descent for it. With the three cross entropies balancing changes nothing; with truths of one column per class the weights are those of other samples.", "quantifier": "for all networks, data, labels, optimizers, losses, regularizers, batch sizes, numbers of epochs and random numbers", "why_tests_cant": "The weights enter every gradient of every batch through all layers; that the sum of all this is the gradient of one function holds for all weights and data or it is not true.", "anchors": ["src/Loss.cpp:20-44", "src/NetTrain.cpp:700-745", "src/NetTrain.cpp:395-650"]}
{"id": "C131", "title": "Predictions are robust: small changes of the inputs change outputs by a known bound only", "statement": "When two samples differ by at most d in every number, all outputs that predict computes for them differ by at most d times the product of the gains of the layers: the largest sum of absolute weights into one output for dense, dot, convolution and time distributed layers, the slope for activations, one half for softmax, one for the others. So a predicted class that wins by more than twice this bound stays the same under all such changes. Twenty named activations have gain 1; for a dense layer the bound is reached.", "quantifier": "for all networks of the supported kinds, all weights, all inputs, all changes up to d, all batches", "why_tests_cant": "It speaks of all of infinitely many changes of an input at once; trying changes never shows that none is worse.", "anchors": ["src/Net.cpp:63-99", "src/LayerDense.cpp", "src/LayerConvolution2D.cpp", "src/Activations.cpp", "src/LayerSoftmax.cpp"]}
{"id": "C132", "title": "Image layers follow the image: a moved image gives moved results", "statement": "For convolution, average and maximum pooling, channel bias and activations: when an image shows the same content moved by a times the row stride and b times the column stride, the output shows the same content moved by a rows and b columns, wherever both are inside the image. In a network of such layers the same holds for the product of all strides. So predict returns moved results for moved images.", "quantifier": "for all images, sizes, channels, kernels, strides, weights, networks of these layers, shifts and batches", "why_tests_cant": "A wrong index at one border column or for one stride shows up in few images only; the claim is about all images, sizes, strides and shifts.", "anchors": ["src/LayerConvolution2D.cpp", "src/LayerAveragePooling2D.cpp", "src/LayerMaxPool2D.cpp", "src/LayerChannelBias.cpp", "src/Net.cpp:63-99"]}
{"id": "C133", "title": "The Python library predicts what the C++ library predicts, and leaves the data of the caller alone", "statement": "Model.predict of the Python library returns, for a model in test mode, the outputs of the network that its layers are; these are the outputs that Net::predict of the C++ library computes for the same network. No numpy array that existed before is changed, so that predicting again gives the same.", "quantifier": "for all models of activations, dense, dot, bias, gain, noise, dropout, softmax and time distributed layers, all weights, all batches, all states of numpy's memory and random numbers", "why_tests_cant": "That no array is changed depends on which layers hand on references and which write to them, for all sequences of layers; and equality of two implementations is a claim about all networks and inputs.", "anchors": ["python/beednn/Layer.py", "python/beednn/Model.py:43-47", "src/Net.cpp:63-99"]}
{"id": "C134", "title": "The activations of the Python library are those of the C++ library, and keep their derivatives", "statement": "Every activation layer of the Python library computes the function that the C++ library has under the same name, and what it keeps for the backward pass is the derivative of that function.", "quantifier": "for all activation layers of Layer.py and all real inputs at which the activation has a derivative", "why_tests_cant": "Derivatives are limits, and agreement of two formulas at sampled points does not show agreement at jumps and kinks or in branches that no sample reaches.", "anchors": ["python/beednn/Layer.py:48-276", "src/Activations.cpp"]}
{"id": "C135", "title": "A training step of the Python library is a step of gradient descent", "statement": "One batch of training with SGD in the Python library runs without exception and moves every bias and weight against the gradient of the mean error of the batch, times the learning rate; it changes no other array than those of the batch; and the C++ library makes the same step.", "quantifier": "for all sequential models of any depth and widths, all losses of the library, all batches, truths, learning rates and parameters with no sample at a kink", "why_tests_cant": "A test compares the step with a numerical gradient for a few models; the gradient has to be right for every composition of layers, and aliasing between arrays that layers keep and arrays that layers overwrite shows only for particular neighbours.", "anchors": ["python/beednn/Model.py:49-56", "python/beednn/Model.py:145-159", "python/beednn/Layer.py:26-35", "python/beednn/Loss.py:10-116", "python/beednn/Optimizer.py:23-26"]}
{"id": "C136", "title": "fit of the Python library is stochastic gradient descent from fresh weights", "statement": "Train.fit runs without exception: it draws new weights in the Xavier interval and sets biases to 0, in every epoch uses every sample in exactly one batch, makes a step of gradient descent for every batch, leaves the training data as they are, and leaves the model in test mode so that predict gives the outputs of the last network. What the layers had learnt before does not matter.", "quantifier": "for all sequential models, numbers of epochs and samples, batch sizes (also not dividing the number of samples), orders of the samples, draws of weights, and losses", "why_tests_cant": "A run of fit shows one order, one size and one draw; that no sample is lost or used twice, that every step is the right one and that data are not overwritten has to hold for all of them.", "anchors": ["python/beednn/Model.py:104-198", "python/beednn/Layer.py:22-23", "python/beednn/Layer.py:363-366", "python/beednn/Layer.py:387-392"]}
{"id": "C137", "title": "optimizers of the Python library against those of the C++ library", "statement": "optimize of the Python library runs on weights and gradients of one shape without exception, works cell by cell, and changes no other array than the weights given (and these only where it says w += or w -=). SGD, MomentumNg, Nesterov and RPROP- end with the weights of the C++ library for the same settings, weights and gradients. The others differ as follows: Step for gradients 0; Momentum by the first gradient, which is the first velocity; Adam, Amsgrad, AdamW and Adamax by a factor of each step with proved bounds; Nadam, whose first step is twice that of Adam; and some default learning rates.", "quantifier": "for all classes of Optimizer.py, settings, shapes, initial weights, sequences of gradients, and numbers of steps", "why_tests_cant": "The difference of two optimizers builds up over the steps and depends on the whole sequence of gradients; a run on one sequence bounds nothing for the others.", "anchors": ["python/beednn/Optimizer.py:17-226", "src/Optimizer.cpp:49-902"]}
{"id": "C138", "title": "training and fit of the Python library with any optimizer", "statement": "Training a model of the Python library with any of its optimizers, by a sequence of batches or by fit, runs without exception. After each batch every weight and bias is what the rule of its optimizer makes of its initial value and of the gradients of the mean errors of all batches so far, although most optimizers change the weight arrays in place; no other array changes.", "quantifier": "for all models of layers that learn, losses, optimizers, sequences of batches, numbers of epochs, batch sizes, orders of samples, and random initial weights", "why_tests_cant": "Weights are updated in place in arrays that layers also keep references to; that no update ever reaches another layer's array or the data depends on every possible sharing of arrays, and the memory of the optimizers on all batches before.", "anchors": ["python/beednn/Model.py:49-56", "python/beednn/Model.py:104-199", "python/beednn/Layer.py:283-540", "python/beednn/Optimizer.py:17-226"]}
{"id": "C139", "title": "losses, accuracies and best model of the Python library", "statement": "The confusion matrix of the Python library counts the samples of each pair of classes and the accuracy is the percentage of right predictions. fit collects one loss for each epoch, made from the errors of all samples for the networks they were trained with, and one accuracy for each epoch, of the network after it; the best model is the network after the first epoch with the largest accuracy on the test data.", "quantifier": "for all models of layers that learn, losses, optimizers, data with labels, numbers of epochs, batch sizes, orders of samples, and random initial weights", "why_tests_cant": "That no predicted class, order of batches or sequence of accuracies makes the record wrong or the computation fail depends on all data and on the whole history of training.", "anchors": ["python/beednn/Model.py:13-24", "python/beednn/Model.py:110-115", "python/beednn/Model.py:131-190", "python/beednn/Loss.py:23-116"]}
{"id": "C140", "title": "best model over the threads of the Python MetaOptimizer", "statement": "After MetaOptimizer.run of the Python library, max_accuracy is the greatest training accuracy of any epoch of any thread in any try, and best_net is a copy of the model that had it. With any switching of threads, they are at least an accuracy and a model that occurred.", "quantifier": "for all numbers of threads, tries and epochs, all accuracies, and all ways to switch between threads", "why_tests_cant": "A test runs under a few schedules of the threads; that a result holds, or can go wrong, depends on all ways to interleave the callbacks.", "anchors": ["python/beednn/MetaOptimizer.py:17-59", "python/beednn/Model.py:67-77", "python/beednn/Model.py:170"]}
{"id": "C141", "title": "the recurrent layer of the Python library", "statement": "LayerRNN of the Python library computes h_n = tanh(x_n + h_{n-1} W) for each sample, so that an output frame depends on the frames so far of its sample only; its back-propagation gives gradients of the loss, and training changes the weights by the rule of the optimizer.", "quantifier": "for all frame sizes, numbers of frames and samples, inputs, weights, gradients, optimizers and numbers of rounds of training", "why_tests_cant": "Tests compare a few sequences; that no input makes the recurrence go wrong, and that no training at all can change the weights, needs all sequences and histories.", "anchors": ["python/beednn/Layer.py:566-592", "python/beednn/Layer.py:596-661"]}
{"id": "C142", "title": "different networks that do the same", "statement": "A softmax or a strictly increasing activation at the end of a classifier with more than one output does not change its classes; units before a homogeneous activation (such as ReLU) may be rescaled if the next dense layer makes up for it; and networks without activations, however deep, do what a single dense layer does.", "quantifier": "for all networks, numbers of layers and widths, weights and biases, positive factors, batches and contents of the output matrices before", "why_tests_cant": "Each claim compares two different networks for all inputs and weights and any depth; tests compare a few samples of one pair.", "anchors": ["src/Net.cpp:65-100", "src/LayerSoftmax.cpp:27-40", "src/LayerDense.cpp:53-60", "src/LayerActivation.cpp:34-45"]}
{"id": "C143", "title": "LayerFlatten of the Python library", "statement": "LayerFlatten makes one row of each sample, whatever its dimensions, and its back-propagation gives each gradient back to the entry it belongs to, in the shape of the input.", "quantifier": "for all batches with any number of samples, dimensions and sizes, all entries and all gradients", "why_tests_cant": "Tests use a few shapes; which entry goes where has to be right for all shapes, and the shapes that go wrong silently are found only by looking at all of them.", "anchors": ["python/beednn/Layer.py:39-45"]}
{"id": "C144", "title": "MNIST import of the Python library", "statement": "MNIST_import.load returns the pixels and labels that are in the four files, the same numbers that the C++ reader delivers for them, and refuses files that are not complete MNIST files.", "quantifier": "for all contents of the four files", "why_tests_cant": "A test reads one set of files; what happens to each pixel, and to every damaged or different file, needs all contents.", "anchors": ["python/beednn/MNIST_import.py:5-33", "src/MNISTReader.cpp:30-120", "python/sample_MNIST.py:8-14"]}
{"id": "C145", "title": "A network built layer by layer is the network described", "statement": "A program that makes layers with `new` and adds them to an empty network gets the network it describes: these layers in this order, with the sizes, kernels, strides, activations and rates given as arguments and with weights ready for use; it predicts by applying them one after the other, and other networks and layers do not change.", "quantifier": "for all numbers of layers, all layer classes of the model of trainable networks (except LayerBias), all sizes that fit together, all initializers, all draws of the generator and all states of the program before", "why_tests_cant": "Tests build a few fixed networks; exchanged arguments (rows and columns, inputs and outputs) do not show for square or equal sizes, and weights are random.", "anchors": ["src/Net.cpp:51-54", "src/LayerConvolution2D.cpp:19-60", "src/LayerDense.cpp:16-24", "src/LayerTimeDistributedDense.cpp:16-24", "src/LayerDropout.cpp:16-25"]}
{"id": "C146", "title": "A whole training program, from new to the predictions", "statement": "A program that makes a network layer by layer, makes a trainer, sets loss, optimizer, learning rate, epochs and batch size, gives it data that fit and calls fit and predict runs to its end, and predicts with the network that the rule of the optimizer makes of the described one. If it is linear regression by SGD with all samples in a batch and a small enough learning rate, enough epochs bring its error as close to the least one as wanted.", "quantifier": "for all networks of the model of trainable networks (without LayerBias), losses, optimizers, learning rates, epochs, batch sizes, data, initializers and draws", "why_tests_cant": "Tests run single programs with small data; that no program of this form fails, and what its last network is, concerns all of them. Convergence is a statement about any number of epochs and any data.", "anchors": ["src/NetTrain.cpp:270-275", "src/NetTrain.cpp:383-660", "src/Net.cpp:51-75"]}
{"id": "C147", "title": "With full batches, giving every sample equally often does not matter", "statement": "Training with all samples in one batch gives the same network if every sample is given k times (in any order) instead of once, with any optimizer.", "quantifier": "for all networks of smooth layers, all k, orders, data, optimizers, settings, losses without kink, numbers of epochs and random numbers", "why_tests_cant": "Tests train on one set of data; equality of two trainings for all data and any number of epochs is a relation between runs.", "anchors": ["src/NetTrain.cpp:556-625", "src/LayerConvolution2D.cpp:102-125", "src/LayerDense.cpp:60-66"]}
{"id": "C148", "title": "Class numbers and one-hot rows give the same training", "statement": "Training and evaluating with SparseCategoricalCrossEntropy and class numbers is the same as with CategoricalCrossEntropy and one-hot rows: same network, losses, accuracies, learning rate and optimizer state.", "quantifier": "for all networks whose layers fit together with two outputs or more, all data and classes, optimizers, regularizers, batch sizes, validation data, numbers of epochs and random numbers, without class balancing and early stopping", "why_tests_cant": "Tests train on one set of data; equality of two whole runs for all data and any number of epochs is a relation between runs.", "anchors": ["src/Loss.cpp:375-463", "src/NetTrain.cpp:556-658", "src/NetTrain.cpp:395-554"]}
{"id": "C149", "title": "Training can be continued with further calls of fit", "statement": "With SGD and without keep-best, calling fit several times with the same trainer and network is one training with as many epochs as all calls together, without fault.", "quantifier": "for all feed-forward networks of the fifteen kinds of layers of C92, all data, losses, regularizers, batch sizes, reboost settings, random numbers, and any number of calls with any numbers of epochs, without class balancing and patience", "why_tests_cant": "Tests make one or two calls on one network; that no call leaves anything behind that changes the next one is a statement about all sequences of calls.", "anchors": ["src/NetTrain.cpp:395-554", "src/NetTrain.cpp:140-160"]}
