import Verif.Basic.Opt
import Verif.Basic.Scalar
import Verif.Basic.Xt
import Verif.Lemmas.Archive
import Verif.Lemmas.Ascent
import Verif.Lemmas.Bo
import Verif.Lemmas.Bo2
import Verif.Lemmas.Bo3
import Verif.Lemmas.BoCover
import Verif.Lemmas.BoGp
import Verif.Lemmas.BoGpSafe
import Verif.Lemmas.BoHonest
import Verif.Lemmas.BoLog
import Verif.Lemmas.BoRel
import Verif.Lemmas.BoSafe
import Verif.Lemmas.BoShift
import Verif.Lemmas.BoStat
import Verif.Lemmas.BoTrace
import Verif.Lemmas.BoTwin
import Verif.Lemmas.CBo
import Verif.Lemmas.CBo2
import Verif.Lemmas.CBo3
import Verif.Lemmas.Chol
import Verif.Lemmas.EhviErr
import Verif.Lemmas.EhviGeo
import Verif.Lemmas.EhviInt
import Verif.Lemmas.EhviRun
import Verif.Lemmas.EhviSum
import Verif.Lemmas.F64Laws
import Verif.Lemmas.Gauss
import Verif.Lemmas.GpCore
import Verif.Lemmas.GpEq
import Verif.Lemmas.GpFiles
import Verif.Lemmas.GpGrad
import Verif.Lemmas.GpObs
import Verif.Lemmas.GpObs2
import Verif.Lemmas.GpTrack
import Verif.Lemmas.GradOpt
import Verif.Lemmas.GradOpt2
import Verif.Lemmas.Grid
import Verif.Lemmas.HpOpt
import Verif.Lemmas.Hv
import Verif.Lemmas.HvCalc
import Verif.Lemmas.HvVol
import Verif.Lemmas.Imgpo
import Verif.Lemmas.Imgpo10
import Verif.Lemmas.Imgpo11
import Verif.Lemmas.Imgpo12
import Verif.Lemmas.Imgpo2
import Verif.Lemmas.Imgpo3
import Verif.Lemmas.Imgpo4
import Verif.Lemmas.Imgpo5
import Verif.Lemmas.Imgpo6
import Verif.Lemmas.Imgpo7
import Verif.Lemmas.Imgpo8
import Verif.Lemmas.Imgpo9
import Verif.Lemmas.Kernel
import Verif.Lemmas.KernelCover
import Verif.Lemmas.Loo
import Verif.Lemmas.MatDeriv
import Verif.Lemmas.Mean
import Verif.Lemmas.MuStat
import Verif.Lemmas.Multi
import Verif.Lemmas.Multi2
import Verif.Lemmas.Multi3
import Verif.Lemmas.MultiGp
import Verif.Lemmas.MultiGp2
import Verif.Lemmas.MultiGpFiles
import Verif.Lemmas.Par
import Verif.Lemmas.Parego
import Verif.Lemmas.Pareto
import Verif.Lemmas.Psd
import Verif.Lemmas.Rkhs
import Verif.Lemmas.Sparsified
import Verif.Lemmas.Spgp
import Verif.Lemmas.SpgpGrad
import Verif.Lemmas.SpgpLik
import Verif.Lemmas.SpgpRun
import Verif.Lemmas.SpgpStale
import Verif.Lemmas.SpgpTotal
import Verif.Lemmas.SpgpVec
import Verif.Lemmas.Wrappers
import Verif.Lemmas.XtLaws
import Verif.Model.Acqui
import Verif.Model.AcquiBo
import Verif.Model.Archive
import Verif.Model.Bench
import Verif.Model.Bo
import Verif.Model.BoGp
import Verif.Model.BoMultiGp
import Verif.Model.BoParego
import Verif.Model.BoSparse
import Verif.Model.CBo
import Verif.Model.Ehvi
import Verif.Model.EhviGp
import Verif.Model.Gp
import Verif.Model.GpFiles
import Verif.Model.GradOpt
import Verif.Model.HpOpt
import Verif.Model.Hv
import Verif.Model.Imgpo
import Verif.Model.Init
import Verif.Model.Kernel
import Verif.Model.LinAlg
import Verif.Model.Multi
import Verif.Model.MultiGp
import Verif.Model.MultiGpFiles
import Verif.Model.Par
import Verif.Model.Parego
import Verif.Model.Pareto
import Verif.Model.ParetoStat
import Verif.Model.RegFns
import Verif.Model.RegFns2
import Verif.Model.ResDir
import Verif.Model.Rng
import Verif.Model.Search
import Verif.Model.Sparsified
import Verif.Model.Spgp
import Verif.Model.StatGp
import Verif.Model.StopGp
import Verif.Model.Tools
import Verif.Model.UcbImgpo
import Verif.Model.Wrappers
import Verif.Props.Acqui
import Verif.Props.Archive
import Verif.Props.Ascent
import Verif.Props.Bench
import Verif.Props.Bo
import Verif.Props.BoAcqui
import Verif.Props.BoBestLog
import Verif.Props.BoGp
import Verif.Props.BoMultiGp
import Verif.Props.BoParego
import Verif.Props.BoSafe
import Verif.Props.BoShift
import Verif.Props.BoSparse
import Verif.Props.BoThrow
import Verif.Props.BoThrowMore
import Verif.Props.CBo
import Verif.Props.CBoBlind
import Verif.Props.CBoLoop
import Verif.Props.Confidence
import Verif.Props.Ehvi
import Verif.Props.EhviGp
import Verif.Props.EhviGpRun
import Verif.Props.Gp
import Verif.Props.GpFiles
import Verif.Props.GpGrad
import Verif.Props.GpInvariance
import Verif.Props.GpParams
import Verif.Props.GpSave
import Verif.Props.GradOpt
import Verif.Props.HpOpt
import Verif.Props.Hv
import Verif.Props.Imgpo
import Verif.Props.Imgpo2
import Verif.Props.Init
import Verif.Props.Kernel
import Verif.Props.Multi
import Verif.Props.MultiGp
import Verif.Props.MultiGpFiles
import Verif.Props.NsboGp
import Verif.Props.NsboGpRun
import Verif.Props.Par
import Verif.Props.Parego
import Verif.Props.Pareto
import Verif.Props.ParetoStat
import Verif.Props.RegFns
import Verif.Props.RegFns2
import Verif.Props.Regret
import Verif.Props.RegretCover
import Verif.Props.ResDir
import Verif.Props.Rng
import Verif.Props.RngSeq
import Verif.Props.Search
import Verif.Props.Sparsified
import Verif.Props.Spgp
import Verif.Props.StatGp
import Verif.Props.StopGp
import Verif.Props.Tools
import Verif.Props.UcbImgpo
import Verif.Props.Wrappers
import Verif.Spec.Acqui
import Verif.Spec.AcquiGp
import Verif.Spec.Archive
import Verif.Spec.Ascent
import Verif.Spec.Bench
import Verif.Spec.Bo
import Verif.Spec.BoAcqui
import Verif.Spec.BoBestLog
import Verif.Spec.BoGp
import Verif.Spec.BoMultiGp
import Verif.Spec.BoParego
import Verif.Spec.BoSafe
import Verif.Spec.BoShift
import Verif.Spec.BoSparse
import Verif.Spec.BoThrow
import Verif.Spec.CBo
import Verif.Spec.CBoBlind
import Verif.Spec.Ehvi
import Verif.Spec.EhviGp
import Verif.Spec.Gp
import Verif.Spec.GpFiles
import Verif.Spec.GpHist
import Verif.Spec.GpInvariance
import Verif.Spec.GpLik
import Verif.Spec.GpParams
import Verif.Spec.Grid
import Verif.Spec.Hv
import Verif.Spec.Imgpo
import Verif.Spec.Imgpo2
import Verif.Spec.Kernel
import Verif.Spec.LinAlg
import Verif.Spec.Mean
import Verif.Spec.Multi
import Verif.Spec.MultiGp
import Verif.Spec.MultiGpFiles
import Verif.Spec.NsboGp
import Verif.Spec.Opt
import Verif.Spec.Par
import Verif.Spec.Parego
import Verif.Spec.Pareto
import Verif.Spec.ParetoStat
import Verif.Spec.RegFns
import Verif.Spec.Regret
import Verif.Spec.RegretCover
import Verif.Spec.ResDir
import Verif.Spec.Rkhs
import Verif.Spec.Rng
import Verif.Spec.Sparsified
import Verif.Spec.Spgp
import Verif.Spec.SpgpHist
import Verif.Spec.StatGp
import Verif.Spec.Wrappers
