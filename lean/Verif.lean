import Verif.Base
import Verif.Auc.History
import Verif.Auc.Lemmas
import Verif.Auc.Lemmas2
import Verif.Auc.Lemmas3
import Verif.Auc.Lemmas4
import Verif.Auc.Lemmas5
import Verif.Auc.Lemmas6
import Verif.Auc.Model
import Verif.Auc.Props
import Verif.Auc.Spec
import Verif.Auc.Transcript
import Verif.Auc.Xor
import Verif.Client.Lemmas
import Verif.Client.Lemmas2
import Verif.Client.Model
import Verif.Client.Mux
import Verif.Client.MuxProps
import Verif.Client.Props
import Verif.Client.Spec
import Verif.Config.Inv
import Verif.Config.Lemmas
import Verif.Config.Lemmas2
import Verif.Config.MdnsPorts
import Verif.Config.Model
import Verif.Config.PdpProps
import Verif.Config.PdpProps2
import Verif.Config.Props
import Verif.Config.Reload
import Verif.Config.Reload2
import Verif.Config.RouteProps
import Verif.Config.Routing
import Verif.Config.Spec
import Verif.Config.Transcript
import Verif.Config.Unread
import Verif.Db.Hoare
import Verif.Db.Invariants
import Verif.Db.Invariants2
import Verif.Db.Isolate
import Verif.Db.Keys
import Verif.Db.Lemmas
import Verif.Db.Model
import Verif.Db.Props
import Verif.Db.Refine
import Verif.Db.Spec
import Verif.Db.Transcript
import Verif.Db.Uniform
import Verif.DbOpen.Lemmas
import Verif.DbOpen.Lemmas2
import Verif.DbOpen.Lemmas3
import Verif.DbOpen.Lemmas4
import Verif.DbOpen.Lemmas5
import Verif.DbOpen.Model
import Verif.DbOpen.Props
import Verif.DbOpen.Spec
import Verif.DbOpen.Transcript
import Verif.Dgsm.Json
import Verif.Dgsm.Lemmas
import Verif.Dgsm.Model
import Verif.Dgsm.Pipe
import Verif.Dgsm.PipeLemmas
import Verif.Dgsm.PipeProps
import Verif.Dgsm.Props
import Verif.Dgsm.SocketProps
import Verif.Dgsm.Spec
import Verif.Euse.Model
import Verif.Euse.Props
import Verif.Fake.Inv
import Verif.Fake.Lemmas
import Verif.Fake.Model
import Verif.Fake.Props
import Verif.Fake.Quiet
import Verif.Fake.Spec
import Verif.Gsup.Msg
import Verif.Gsup.Name
import Verif.Gsup.Props
import Verif.Gsup.Transcript
import Verif.Hlr.Lemmas
import Verif.Hlr.Model
import Verif.Hlr.Props
import Verif.Hlr.Spec
import Verif.Import.Lemmas
import Verif.Import.Lemmas2
import Verif.Import.Lemmas3
import Verif.Import.Lemmas4
import Verif.Import.Model
import Verif.Import.Props
import Verif.Import.Spec
import Verif.Import.Witness
import Verif.Live.Lemmas
import Verif.Live.Model
import Verif.Live.Props
import Verif.Live.Props2
import Verif.Live.Props3
import Verif.Live.Routes
import Verif.Live.Spec
import Verif.Mslookup.Client
import Verif.Mslookup.ClientLemmas
import Verif.Mslookup.ClientProps
import Verif.Mslookup.ClientSpec
import Verif.Mslookup.Config
import Verif.Mslookup.ConfigLemmas
import Verif.Mslookup.ConfigProps
import Verif.Mslookup.ConfigSpec
import Verif.Mslookup.ConfigWrite
import Verif.Mslookup.Domain
import Verif.Mslookup.DomainProps
import Verif.Mslookup.Mdns
import Verif.Mslookup.MdnsConfig
import Verif.Mslookup.MdnsLemmas
import Verif.Mslookup.MdnsMethod
import Verif.Mslookup.MdnsMethodProps
import Verif.Mslookup.MdnsProps
import Verif.Mslookup.MdnsResult
import Verif.Mslookup.ReuseEx
import Verif.Mslookup.Server
import Verif.Mslookup.ServerHist
import Verif.Mslookup.ServerProps
import Verif.Mslookup.ServerSpec
import Verif.Mslookup.Timestamp
import Verif.Mslookup.Transcript
import Verif.Net.Inv
import Verif.Net.Lemmas
import Verif.Net.Model
import Verif.Net.Props
import Verif.Net.Props2
import Verif.Net.Spec
import Verif.Populate.Keys
import Verif.Populate.Model
import Verif.Populate.Props
import Verif.Prov.Ctrl
import Verif.Prov.Lemmas
import Verif.Prov.Lemmas2
import Verif.Prov.Lemmas3
import Verif.Prov.Lemmas4
import Verif.Prov.Lemmas5
import Verif.Prov.Lemmas6
import Verif.Prov.Listing
import Verif.Prov.ListingProps
import Verif.Prov.ListingSpec
import Verif.Prov.Props
import Verif.Prov.Props2
import Verif.Prov.Props3
import Verif.Prov.Running
import Verif.Prov.RunningProps
import Verif.Prov.Safety
import Verif.Prov.SafetyProps
import Verif.Prov.Spec
import Verif.Prov.Text
import Verif.Prov.Transcript
import Verif.Prov.Vty
import Verif.Prov.VtyLemmas
import Verif.Prov.VtyLemmas2
import Verif.Prov.VtyProps
import Verif.Prov.VtyProps2
import Verif.Prov.VtyProps3
import Verif.Prov.VtySpec
import Verif.Prov.VtyTranscript
import Verif.Roam.Ex
import Verif.Roam.Props
import Verif.Roam.Spec
import Verif.Sql2c.File
import Verif.Sql2c.Model
import Verif.Sql2c.Props
import Verif.Sql2c.Read
import Verif.Sql2c.Upgrade
import Verif.Start.CmdSpec
import Verif.Start.Getopt
import Verif.Start.Getopt2
import Verif.Start.Lemmas
import Verif.Start.Model
import Verif.Start.Props
import Verif.Start.Props2
import Verif.Start.Props3
import Verif.Start.Props4
import Verif.Start.Props5
import Verif.Start.Props6
import Verif.Start.Send
import Verif.Start.Spec
import Verif.Stop.Model
import Verif.Stop.Props
import Verif.Sys.Api
import Verif.Sys.AucHist
import Verif.Sys.EntryHist
import Verif.Sys.Ex11
import Verif.Sys.Frame
import Verif.Sys.Frame2
import Verif.Sys.Frame3
import Verif.Sys.Gone
import Verif.Sys.HomeHist
import Verif.Sys.Isolate
import Verif.Sys.IsolateProps
import Verif.Sys.Kept
import Verif.Sys.Lemmas
import Verif.Sys.Lemmas2
import Verif.Sys.Lemmas3
import Verif.Sys.Linking
import Verif.Sys.LuHist
import Verif.Sys.LuLast
import Verif.Sys.Model
import Verif.Sys.Origin
import Verif.Sys.Props1
import Verif.Sys.Props10
import Verif.Sys.Props11
import Verif.Sys.Props2
import Verif.Sys.Props3
import Verif.Sys.Props4
import Verif.Sys.Props5
import Verif.Sys.Props6
import Verif.Sys.Props7
import Verif.Sys.Props8
import Verif.Sys.Props9
import Verif.Sys.Proxy
import Verif.Sys.ProxyHist
import Verif.Sys.Safety
import Verif.Sys.SessHist
import Verif.Sys.Show
import Verif.Sys.ShowProps
import Verif.Sys.Spec
import Verif.Sys.State
import Verif.Sys.VlrHist
import Verif.Sys.Waiting
import Verif.TestClient.Inv
import Verif.TestClient.Inv2
import Verif.TestClient.Lemmas
import Verif.TestClient.Model
import Verif.TestClient.Props
import Verif.TestClient.Spec
import Verif.Tool.Conns
import Verif.Tool.Core
import Verif.Tool.Format
import Verif.Tool.FormatSpec
import Verif.Tool.Lemmas
import Verif.Tool.Lookup
import Verif.Tool.Model
import Verif.Tool.Props
import Verif.Tool.Run
import Verif.Tool.Spec
import Verif.Tool.Steps
import Verif.Tool.Text
import Verif.Tool.Witness
import Verif.Upgrade.Lemmas
import Verif.Upgrade.Model
import Verif.Upgrade.Props
import Verif.Upgrade.Spec
import Verif.Wire.Inv
import Verif.Wire.Lemmas
import Verif.Wire.Mem
import Verif.Wire.Model
import Verif.Wire.Props
import Verif.Wire.Spec
