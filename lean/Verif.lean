import Verif.HexModel
import Verif.HexProps
import Verif.DtlsTimerModel
import Verif.DtlsTimerProps
import Verif.UrlModel
import Verif.UrlProps
import Verif.HttpConnModel
import Verif.HttpConnLemmas
import Verif.HttpConnProps
import Verif.EstUriModel
import Verif.EstUriProps
import Verif.HttpHdrModel
import Verif.HttpHdrProps
import Verif.EstErr
import Verif.ServerModel
import Verif.DispatchModel
import Verif.AuthProps
import Verif.EnrollProps
import Verif.DispatchProps
import Verif.Base64Model
import Verif.Base64Props
import Verif.CborModel
import Verif.CborProps
import Verif.ClientRespModel
import Verif.ClientRespProps
import Verif.CoapModel
import Verif.CoapTableProps
import Verif.CoapProps
import Verif.HostModel
import Verif.HostProps
import Verif.AuthHdrModel
import Verif.AuthHdrProps
import Verif.ClientReqModel
import Verif.ClientReqProps
import Verif.ChallengeModel
import Verif.ChallengeProps
import Verif.MultipartModel
import Verif.MultipartProps
import Verif.ClientFlowModel
import Verif.ClientFlowLemmas
import Verif.ClientFlowProps
import Verif.SetterModel
import Verif.SetterProps
import Verif.JsmnModel
import Verif.JsmnProps
import Verif.VoucherModel
import Verif.VoucherProps
import Verif.TlsModel
import Verif.TlsProps
import Verif.EventModel
import Verif.EventProps
import Verif.ProxyTableModel
import Verif.ProxyTableProps
import Verif.ProxyProps
import Verif.ProxyFwdProps
import Verif.Asn1Model
import Verif.Asn1Lemmas
import Verif.Asn1Props
import Verif.ProxyDistProps
import Verif.WireModel
import Verif.WireProps
import Verif.WireEnrollProps
import Verif.WireGetProps
import Verif.WirePopProps
import Verif.WireGateProps
import Verif.WireKeygenProps
import Verif.CoapAllModel
import Verif.CoapAllProps
import Verif.CoapGetProps
import Verif.CoapSkgProps
import Verif.CoapSourceProps
import Verif.CoapEnrollModel
import Verif.CoapEnrollProps
import Verif.WireConnModel
import Verif.WireConnProps
import Verif.CaVerifyModel
import Verif.CaVerifyProps
import Verif.ClientMemModel
import Verif.ClientMemLemmas
import Verif.ClientMemProps
import Verif.ServerMemModel
import Verif.ServerMemLemmas
import Verif.ServerMemProps
import Verif.ConfigModel
import Verif.ConfigProps
import Verif.SessModel
import Verif.SessProps
import Verif.LifeModel
import Verif.LifeProps
import Verif.CredModel
import Verif.CredProps
import Verif.WireNameProps
import Verif.ChainModel
import Verif.ChainProps
import Verif.ConfigWireProps
import Verif.EcaProps
import Verif.SessHostProps
import Verif.LifeMoreProps
import Verif.CredMoreProps
import Verif.InitModel
import Verif.InitLemmas
import Verif.InitProps
import Verif.ChainGetProps
import Verif.WireBrskiModel
import Verif.WireBrskiProps
import Verif.TimerModel
import Verif.TimerProps
import Verif.SockModel
import Verif.SockProps
import Verif.SafeModel
import Verif.SafeProps
import Verif.ProxyMemModel
import Verif.ProxyMemLemmas
import Verif.ProxyMemProps
import Verif.JniModel
import Verif.JniLemmas
import Verif.JniProps
import Verif.AttrHelpModel
import Verif.AttrHelpProps
import Verif.ManualModel
import Verif.ManualLemmas
import Verif.ManualProps
import Verif.WipeModel
import Verif.WipeProps
import Verif.JniMoreProps
import Verif.AttrHelpMoreProps
import Verif.CoapMemModel
import Verif.CoapMemLemmas
import Verif.CoapMemProps
import Verif.BrskiMemModel
import Verif.BrskiMemLemmas
import Verif.BrskiMemProps
import Verif.IoModel
import Verif.IoProps
import Verif.IoClientProps
import Verif.ThreadModel
import Verif.ThreadProps
import Verif.LogModel
import Verif.LogProps
import Verif.QueueModel
import Verif.QueueLemmas
import Verif.QueueCount
import Verif.QueueProps
import Verif.SampleCaModel
import Verif.SampleCaLemmas
import Verif.SampleCaProps
import Verif.SrvBrskiModel
import Verif.SrvBrskiLemmas
import Verif.SrvBrskiProps
import Verif.SrvAuthModel
import Verif.SrvAuthLemmas
import Verif.SrvAuthProps
import Verif.SampleCliModel
import Verif.SampleCliSpec
import Verif.SampleCliLemmas
import Verif.SampleCliSteps
import Verif.SampleCliSafe
import Verif.SampleCliProps
import Verif.SampleArgsModel
import Verif.SampleArgsSpec
import Verif.SampleArgsLemmas
import Verif.SampleArgsProps
import Verif.SubjectModel
import Verif.SubjectSpec
import Verif.SubjectLemmas
import Verif.SubjectProps
import Verif.GetOptModel
import Verif.GetOptSpec
import Verif.GetOptProps
import Verif.DateModel
import Verif.DateSpec
import Verif.DateProps
import Verif.SampleArgsMore
import Verif.CliTlsModel
import Verif.CliTlsSpec
import Verif.CliTlsProps
import Verif.CoapStartModel
import Verif.CoapStartSpec
import Verif.CoapStartProps
import Verif.UtilModel
import Verif.UtilSpec
import Verif.UtilProps
import Verif.HookModel
import Verif.HookSpec
import Verif.HookProps
import Verif.PxSampleModel
import Verif.PxSampleSpec
import Verif.PxSampleProps
import Verif.SubjFieldModel
import Verif.SubjFieldSpec
import Verif.SubjFieldProps
import Verif.ReaderModel
import Verif.ReaderSpec
import Verif.ReaderProps
