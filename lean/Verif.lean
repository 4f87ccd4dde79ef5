import Verif.Props.Matrix
import Verif.Props.Heap
import Verif.Props.Text
import Verif.Props.LayersBasic
import Verif.Props.Activations
import Verif.Props.Softmax
import Verif.Props.Loss
import Verif.Props.Pooling
import Verif.Props.Conv
import Verif.Props.LayersMisc
import Verif.Props.LayerPass
import Verif.Props.LayersRect
import Verif.Props.Recurrent
import Verif.Props.Optimizer
import Verif.Props.Regularizer
import Verif.Props.Initializers
import Verif.Props.Layer
import Verif.Props.Net
import Verif.Props.TrainFit
import Verif.Props.Mlp
import Verif.Props.TrainEval
import Verif.Props.MlpFit
import Verif.Spec.TrainAny
import Verif.Props.TrainAny
import Verif.Props.MlpStep
import Verif.Lemmas.TrainOnce
import Verif.Lemmas.TrainSchedule
import Verif.Props.TrainSettings
import Verif.Props.TrainSchedule
import Verif.Lemmas.TrainLive
import Verif.Spec.ClassWeight
import Verif.Props.ClassWeight
import Verif.Lemmas.MlpStale
import Verif.Props.TrainLive
import Verif.Model.Scaler
import Verif.Lemmas.Scaler
import Verif.Props.Scaler
import Verif.Model.KMeans
import Verif.Spec.KMeans
import Verif.Lemmas.KMeans
import Verif.Lemmas.KMeansTrain
import Verif.Lemmas.KMeansBox
import Verif.Props.KMeans
import Verif.Model.Metrics
import Verif.Spec.Metrics
import Verif.Lemmas.Metrics
import Verif.Props.Metrics
import Verif.Spec.Json
import Verif.Model.Json
import Verif.Lemmas.JsonNum
import Verif.Spec.JsonTree
import Verif.Lemmas.Json
import Verif.Props.Json
import Verif.Model.NetSave
import Verif.Spec.NetSave
import Verif.Lemmas.NetSave
import Verif.Props.NetSave
import Verif.Model.Readers
import Verif.Spec.Readers
import Verif.Lemmas.Readers
import Verif.Props.Readers
import Verif.Model.Factory
import Verif.Spec.Factory
import Verif.Lemmas.Factory
import Verif.Props.Factory
import Verif.Model.Meta
import Verif.Spec.Meta
import Verif.Lemmas.Meta
import Verif.Props.Meta
import Verif.Model.Float32
import Verif.Spec.Float32
import Verif.Lemmas.Float32
import Verif.Lemmas.Float32Acc
import Verif.Lemmas.Float32Near
import Verif.Lemmas.Float32Softmax
import Verif.Lemmas.Float32Opt
import Verif.Props.Float32
import Verif.Props.Float32Opt
import Verif.Model.Samples
import Verif.Spec.Samples
import Verif.Lemmas.Samples
import Verif.Props.Samples
import Verif.Props.Python
import Verif.Lemmas.ActivationBook
import Verif.Props.ActivationBook
import Verif.Spec.Reproducible
import Verif.Lemmas.TwinKinds
import Verif.Lemmas.TwinPool
import Verif.Lemmas.TwinOpt
import Verif.Lemmas.TwinLoop
import Verif.Lemmas.TwinBatch
import Verif.Lemmas.TwinClone
import Verif.Lemmas.TwinEval
import Verif.Lemmas.TwinFit
import Verif.Lemmas.TwinNew
import Verif.Props.Reproducible
import Verif.Spec.Reported
import Verif.Lemmas.MlpBest
import Verif.Props.Reported
import Verif.Props.LayerPassMore
import Verif.Spec.Settings
import Verif.Props.Settings
import Verif.Model.Helpers
import Verif.Spec.Helpers
import Verif.Lemmas.Helpers
import Verif.Props.Helpers
import Verif.Model.Float32Net
import Verif.Spec.Float32Net
import Verif.Lemmas.Float32Net
import Verif.Props.Float32Net
import Verif.Spec.KMeansTwin
import Verif.Lemmas.KMeansTwin
import Verif.Props.KMeansTwin
import Verif.Lemmas.KMeansSettle
import Verif.Props.KMeansSettle
import Verif.Model.SamplesKm
import Verif.Spec.SamplesKm
import Verif.Props.SamplesKm
import Verif.Spec.MetaRun
import Verif.Lemmas.MetaRun
import Verif.Props.MetaRun
import Verif.Model.SamplesMeta
import Verif.Props.SamplesMeta
import Verif.Spec.Linear
import Verif.Lemmas.Linear
import Verif.Props.Linear
import Verif.Model.Data
import Verif.Spec.Data
import Verif.Props.Data
import Verif.Spec.Order
import Verif.Props.Order
import Verif.Spec.Dropout
import Verif.Lemmas.Dropout
import Verif.Props.Dropout
import Verif.Lemmas.OptSymmetry
import Verif.Props.OptSymmetry
import Verif.Props.MlpRule
import Verif.Props.Momentum
import Verif.Props.OrderAny
import Verif.Props.Minibatch
import Verif.Props.Convex
import Verif.Props.Symmetry
import Verif.Props.RegTrain
import Verif.Props.Ridge
import Verif.Props.Reboost
import Verif.Props.Balanced
import Verif.Props.Robust
import Verif.Props.Translate
import Verif.Props.PyLib
import Verif.Props.PyAct
import Verif.Props.PyTrain
import Verif.Props.PyFit
import Verif.Props.PyOptimizer
import Verif.Props.PyTrainBy
import Verif.Props.PyLog
import Verif.Props.PyMeta
import Verif.Props.PyRnn
import Verif.Props.Alike
import Verif.Props.PyArray
import Verif.Props.Build
import Verif.Props.Program
import Verif.Props.Repeat
import Verif.Props.Coded
import Verif.Props.Continue
import Verif.Props.TestMode
