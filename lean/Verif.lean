import Verif.Model.Cli
import Verif.Props.Util
import Verif.Props.Oxm
import Verif.Props.OxmFields
import Verif.Props.Act
import Verif.Props.Flow
import Verif.Props.ActTrip
import Verif.Props.Group
import Verif.Props.Multipart
import Verif.Props.Cli
import Verif.Props.Nx
import Verif.Spec.Nicira
import Verif.Props.Nicira
import Verif.Props.OxmExact
import Verif.Spec.Built
import Verif.Props.Built
import Verif.Props.Vectors
import Verif.Props.ActExact
import Verif.Props.Chain
import Verif.Spec.Qp
import Verif.Props.Qp
import Verif.Props.SsidExact
import Verif.Props.MpReq
import Verif.Props.MpExact
import Verif.Props.Forms
import Verif.Props.ActQp
import Verif.Props.Value
import Verif.Props.ActText
import Verif.Props.RuleText
import Verif.Props.MpText
import Verif.Props.FlowExact
import Verif.Props.StatExact
import Verif.Props.GroupExact
import Verif.Props.DescExact
import Verif.Props.MatchPrint
import Verif.Props.ActPrint
import Verif.Props.MsgPrint
import Verif.Props.MatchReject
import Verif.Props.ActReject
import Verif.Props.RuleReject
import Verif.Props.MpReject
import Verif.Props.Switch
import Verif.Props.CliRun
import Verif.Props.Endless
