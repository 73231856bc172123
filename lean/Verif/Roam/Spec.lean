import Verif.Net.Spec
import Verif.Net.Props2
import Verif.Sys.Origin
import Verif.Sys.Props7
/-!
# HLRs that are connected to each other

The network of `Verif.Net.Model`, with GSUP connections between the HLRs: when a request is for a
subscriber whose home is elsewhere, the HLR looks the home HLR up, connects to it as a GSUP client
(remote_hlr.c 131-200) and there is one GSUP connection more at the home HLR, like those of MSCs
and SGSNs.  No new program code is modelled here: the following says which of the histories of the
network can happen when HLRs are connected in this way.

Simplified: messages arrive as they were sent, see C31 - C36 for encoding and decoding.  More can
happen here than with TCP: a message that was sent may arrive late, repeatedly, out of order or
never.
-/
namespace Verif.Roam
open Verif Verif.Db Verif.Sys Verif.Mslookup Verif.Mslookup.Props Verif.Net Verif.Net.Spec Verif.Sys.Props

/-- Which HLRs are connected: the site whose HLR listens at an address, and the site whose HLR is
at the other end of a connection that was made to the HLR of a site (`none`: an MSC, SGSN, SMSC,
...).  The numbers of connections are not used again. -/
structure Wires where
  site : Addr → Option Nat
  peer : Nat → ConnId → Option Nat

/-- What has happened to and was sent by the HLR of site `j`. -/
def logOf (z : Zone) (sfx : Bytes) (s : Start) (pre : List Net.Ev) (j : Nat) : List Sys.Out := ((Net.run z sfx s pre).site j).sys.log

/-- The HLR of site `j` had the subscriber in its database. -/
def HasSub (z : Zone) (sfx : Bytes) (s : Start) (pre : List Net.Ev) (j : Nat) (imsi : Bytes) : Prop :=
  ∃ x ∈ ((Net.run z sfx s pre).site j).sys.db.subs, x.imsi = imsi

/-- The event can happen after `pre`: what an HLR receives from another was sent by that one, and
the result of a lookup is what a lookup client was given. -/
def Possible (z : Zone) (sfx : Bytes) (s : Start) (w : Wires) (pre : List Net.Ev) : Net.Ev → Prop
  | .hlr j (.rx c mo _) => ∀ i, w.peer j c = some i → ∃ a m nr, mo = some m ∧ w.site a = some j ∧ .remote a m nr ∈ logOf z sfx s pre i
  | .hlr i (.remoteRx a m _) => ∀ j, w.site a = some j → ∃ c nr, w.peer j c = some i ∧ .tx c m nr ∈ logOf z sfx s pre j
  | .hlr _ (.lookup imsi (some v) _) => ∃ p u r, Asked z sfx s pre p u ⟨HLR_GSUP, .imsi imsi⟩
      ∧ .cb r ∈ story (Net.run z sfx s pre) p u ∧ r.rc = .result ∧ v = (r.v4, r.v6)
  | _ => True

/-- The history can happen. -/
def Sound (z : Zone) (sfx : Bytes) (s : Start) (w : Wires) (evs : List Net.Ev) : Prop :=
  ∀ pre e post, evs = pre ++ e :: post → Possible z sfx s w pre e

/-- No node and no stranger's HLR sends results that let a subscriber in. -/
structure Honest (w : Wires) (evs : List Net.Ev) : Prop where
  node : ∀ j c m e, .hlr j (.rx c (some m) e) ∈ evs → w.peer j c = none → ¬ IsGrant m.typ
  hlr : ∀ i a m e, .hlr i (.remoteRx a m e) ∈ evs → w.site a = none → ¬ IsGrant m.typ

/-- No site has a fixed home HLR (`mslookup client gateway-proxy`) configured. -/
def NoGateway (evs : List Net.Ev) : Prop := ∀ j c m e, .hlr j (.rx c (some m) e) ∈ evs → e.gateway.nonzero = false

/-- The subscriber is in the database of no HLR but that of site `h`. -/
def OnlyHome (z : Zone) (sfx : Bytes) (s : Start) (evs : List Net.Ev) (imsi : Bytes) (h : Nat) : Prop :=
  ∀ pre post j, evs = pre ++ post → HasSub z sfx s pre j imsi → j = h

/-- The addresses at which sites offer their HLR are those at which it listens. -/
def Listens (z : Zone) (sfx : Bytes) (s : Start) (w : Wires) (evs : List Net.Ev) : Prop :=
  ∀ pre post j r, evs = pre ++ post → HlrAddress ((Net.run z sfx s pre).site j).srv r → (foundAddr (r.v4, r.v6)).nonzero = true →
    w.site (foundAddr (r.v4, r.v6)) = some j

/-- In the history the HLR of site `j` has itself answered a request with `m`. -/
def Answered (z : Zone) (sfx : Bytes) (s : Start) (evs : List Net.Ev) (j : Nat) (m : Gsup.Msg) : Prop :=
  ∃ c nr, .tx c m (some nr) ∈ logOf z sfx s evs j

end Verif.Roam
