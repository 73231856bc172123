import Verif.Config.Unread
/-!
# C62: a configuration that was written is read back

`Spec.config` is the configuration that commands make, `fileOf` the file that `write file` makes of
it (`none` if that uses a freed object), `readFile` the configuration of an HLR started with that
file (`none` if it does not start), `Spec.Same` says that two configurations make the HLR do the
same.
-/
namespace Verif.Config
open Verif Verif.Sys Verif.Mslookup Verif.Mslookup.Mdns Verif.Config.Spec

/-- The environment of the examples. -/
def e0 : Env where
  ipv4 w := w == b "127.0.0.1"
  ipParse w := if w = b "127.0.0.1" then some (false, 2130706433) else none
  ipText _ := b "127.0.0.1"
  esc _ := b "?"

/-- A command typed in the VTY. -/
def typed (n : Node) (ws : List String) : Input := ⟨n, false, ws.map b⟩

theorem mslOff {e : Env} {m : Msl} (h1 : m.srv.enable = false) (h2 : m.cli.enable = false) (h3 : m.services = []) : writeMsl e m = [] := by
  unfold writeMsl
  rw [h1, h2, h3]
  rfl

theorem find_map {α β : Type} (f : α → β) (p : β → Bool) (q : α → Bool) (h : ∀ x, p (f x) = q x) (l : List α) :
    (l.map f).find? p = (l.find? q).map f := by
  induction l with
  | nil => rfl
  | cons x l ih =>
    rw [List.map_cons, List.find?_cons, List.find?_cons, h]
    split
    · rfl
    · exact ih

theorem ussd_same {s t : St} (old new : List Ent) (ho : s.euses = old) (hn : t.euses = new)
    (hid : (new.map (·.id)).Nodup) (hnm : new.map (·.name) = old.map (·.name)) (h1 : ∀ r ∈ s.routes, RouteOk s r)
    (h2 : ∀ id, s.euseDefault = some id → ∃ x, deref s.euses id = some x) (hr : t.routes = s.routes.map (reroute old new))
    (hd : t.euseDefault = s.euseDefault.map (reid old new)) (code : Bytes) : ussdFor t code = ussdFor s code := by
  have key : ∀ id, (∃ x, deref s.euses id = some x) →
      (deref t.euses (reid old new id)).map (fun x => some (Sum.inl x.name : Bytes ⊕ Iuse)) =
      (deref s.euses id).map (fun x => some (Sum.inl x.name)) := by
    rintro id ⟨x, hx⟩
    have := deref_reid (id := id) hid hnm (ho ▸ hx)
    obtain ⟨y, hy, hy2⟩ := Option.map_eq_some_iff.1 this
    rw [hx, hn, hy, Option.map_some, Option.map_some, hy2]
  unfold ussdFor
  rw [hr, hd]
  have hl : ussdLookup code (s.routes.map (reroute old new)) = (ussdLookup code s.routes).map (reroute old new) :=
    find_map _ _ _ (fun _ => rfl) _
  rw [hl]
  cases hu : ussdLookup code s.routes with
  | none =>
    rw [Option.map_none]
    dsimp only
    cases hdf : s.euseDefault with
    | none => rfl
    | some id => exact key id (h2 id hdf)
  | some r =>
    rw [Option.map_some]
    dsimp only
    unfold reroute
    dsimp only
    cases ht : r.tgt with
    | int i => rfl
    | ext id => exact key id (h1 r (List.mem_of_find?_eq_some hu) id ht)

theorem smsc_same {s t : St} (old new : List Ent) (ho : s.smscs = old) (hn : t.smscs = new)
    (hid : (new.map (·.id)).Nodup) (hnm : new.map (·.name) = old.map (·.name))
    (h1 : ∀ r ∈ s.smscRoutes, ∃ x, deref s.smscs r.smsc = some x)
    (h2 : ∀ id, s.smscDefault = some id → ∃ x, deref s.smscs id = some x) (hr : t.smscRoutes = s.smscRoutes.map (reSmsc old new))
    (hd : t.smscDefault = s.smscDefault.map (reid old new)) (addr : Bytes) : smscFor t addr = smscFor s addr := by
  have key : ∀ id, (∃ x, deref s.smscs id = some x) →
      (deref t.smscs (reid old new id)).map (fun x => some x.name) = (deref s.smscs id).map (fun x => some x.name) := by
    rintro id ⟨x, hx⟩
    have := deref_reid (id := id) hid hnm (ho ▸ hx)
    obtain ⟨y, hy, hy2⟩ := Option.map_eq_some_iff.1 this
    rw [hx, hn, hy, Option.map_some, Option.map_some, hy2]
  unfold smscFor
  rw [hr, hd]
  have hl : smscRouteFind (s.smscRoutes.map (reSmsc old new)) addr = (smscRouteFind s.smscRoutes addr).map (reSmsc old new) :=
    find_map _ _ _ (fun _ => rfl) _
  rw [hl]
  cases hu : smscRouteFind s.smscRoutes addr with
  | none =>
    rw [Option.map_none]
    dsimp only
    cases hdf : s.smscDefault with
    | none => rfl
    | some id => exact key id (h2 id hdf)
  | some r => exact key r.smsc (h1 r (List.mem_of_find?_eq_some hu))

theorem pdpSt_fields (s t : St) : ∃ on sl n, pdpSt s t = { t with pdpOn := on, slots := sl, num := n } := by
  unfold pdpSt
  split
  · exact ⟨true, _, _, rfl⟩
  · exact ⟨t.pdpOn, t.slots, t.num, rfl⟩

theorem reloaded_same {e : Env} {s : St} (hm1 : s.msl.srv.enable = false) (hm2 : s.msl.cli.enable = false)
    (hm3 : s.msl.services = []) (hm4 : s.msl.gateway = {}) {u m : List Line} (hu : writeEuse s = some u) (hms : writeSmsc s = some m)
    (hi : Inv e s) : Same s (reloaded s) := by
  obtain ⟨-, u1, u2⟩ := writeEuse_eq hu
  obtain ⟨-, m1, m2⟩ := writeSmsc_eq hms
  have hp : sentPdps (reloaded s) = sentPdps s := by
    unfold sentPdps reloaded pdpSt
    cases hp : s.pdpOn with
    | true =>
      rw [if_pos rfl, if_pos rfl, if_pos rfl]
      dsimp only
      rw [List.take_left']
      rfl
    | false => rfl
  unfold reloaded at hp ⊢
  obtain ⟨on, sl, n, hpd⟩ := pdpSt_fields s (smscSt s (euseSt s { hlrSt s with bind := s.bind, ipa := s.ipa }))
  rw [hpd] at hp ⊢
  exact {
    rej := rfl, noProxy := rfl, storeImei := rfl, db := rfl, cod := rfl, bind := rfl, ipa := rfl, guard := rfl
    codFlags := by
      intro h
      constructor
      · exact if_neg h
      · exact if_neg h
    euses := mkEnts_names ..
    ussd := ussd_same s.euses _ rfl rfl (mkEnts_ids ..) (mkEnts_names ..) u1 u2 rfl rfl
    smscs := mkEnts_names ..
    smsc := smsc_same s.smscs _ rfl rfl (mkEnts_ids ..) (mkEnts_names ..) m1 m2 rfl rfl
    pdps := hp
    server := hm1.symm
    client := hm2.symm
    services := hm3.symm
    gateway := hm4.symm }

theorem pdpsGood (e : Env) (h : List Input) (hv : ∀ x ∈ h, x.valid = true)
    (noHole : (config e h).pdpOn = true → ∀ p ∈ sentPdps (config e h), p.ctx ≠ 0)
    (apns : ∀ x ∈ h, x.words.head? = some (b "apn") → ∀ a ∈ x.words.tail, [] ∉ apnLabels a) :
    (config e h).pdpOn = true → ∀ p ∈ (config e h).slots.take (config e h).num, PdpGood p := by
  intro hp p hm
  refine ⟨noHole hp p ?_, (inv_config e h hv).pdp p (List.mem_of_mem_take hm), ?_⟩
  · unfold sentPdps
    rw [if_pos hp]
    exact hm
  · have := apns_config e h (fun a => GoodWord a ∧ [] ∉ apnLabels a) (by
      intro x hx a hw
      refine ⟨(goodWord_iff a).1 (List.all_eq_true.1 (hv x hx) a (by rw [hw]; simp)), apns x hx (by rw [hw]; rfl) a (by rw [hw]; simp)⟩)
    intro x hx
    obtain ⟨a, e1, e2, e3, e4⟩ := this p (List.mem_of_mem_take hm) x hx
    exact ⟨a, e1, e3, e2, e4⟩

/-- C62: what `write file` has written is read back: an HLR started with the file does the same.
Missing from the full property, which would have no hypotheses on the configuration: a configuration
with distributed GSM (`c62_mslookup_violated`), one in which a profile was removed before another one
(`c62_hole_violated`), APNs with empty labels (`c62_apn_violated`), routes to EUSEs and SMSCs that
were removed (`c62_freed_violated`: then there is no file), a gateway proxy with the client disabled
(`c62_gateway_violated`). -/
theorem c62_reload_partial (e : Env) (h : List Input) (hv : ∀ x ∈ h, x.valid = true)
    (noServer : (config e h).msl.srv.enable = false) (noClient : (config e h).msl.cli.enable = false)
    (noServices : (config e h).msl.services = []) (noGateway : (config e h).msl.gateway = {})
    (noHole : (config e h).pdpOn = true → ∀ p ∈ sentPdps (config e h), p.ctx ≠ 0)
    (apns : ∀ x ∈ h, x.words.head? = some (b "apn") → ∀ a ∈ x.words.tail, [] ∉ apnLabels a)
    {f : List Bytes} (hf : fileOf e (config e h) = some f) :
    ∃ t, readFile e f = some t ∧ Same (config e h) t := by
  have hi := inv_config e h hv
  refine ⟨_, read_file hi (mslOff noServer noClient noServices) ?_ hf, ?_⟩
  · exact pdpsGood e h hv noHole apns
  · unfold fileOf at hf
    obtain ⟨ls, hls, rfl⟩ := Option.map_eq_some_iff.1 hf
    unfold write at hls
    obtain ⟨u, hu, hls⟩ := Option.bind_eq_some_iff.1 hls
    obtain ⟨m, hms, -⟩ := Option.bind_eq_some_iff.1 hls
    exact reloaded_same noServer noClient noServices noGateway hu hms hi

/-- A configuration with a bit of everything. -/
def exHist : List Input := [
  typed .hlr ["database", "/var/lib/hlr.db"], typed .hlr ["store-imei"],
  typed .hlr ["reject-cause", "not-found", "congestion"], typed .hlr ["subscriber-create-on-demand", "12", "cs+ps"],
  typed .hlr ["euse", "a"], typed .hlr ["euse", "gone"], typed .hlr ["no", "euse", "gone"], typed .hlr ["euse", "c"],
  typed .hlr ["ussd", "route", "prefix", "*#100#", "internal", "own-msisdn"],
  typed .hlr ["ussd", "route", "prefix", "*1", "external", "c"],
  typed .hlr ["ussd", "default-route", "external", "a"], typed .hlr ["ncss-guard-timeout", "0"],
  typed .hlr ["smsc", "entity", "s1"], typed .hlr ["smsc", "route", "123", "s1"], typed .hlr ["smsc", "default-route", "s1"],
  typed .gsup ["bind", "ip", "127.0.0.1"], typed .ps ["pdp-profiles", "default"],
  typed .profiles ["profile", "3"], typed (.profile 0) ["apn", "internet.example"], typed .profiles ["profile", "1"]]

example : (∀ x ∈ exHist, x.valid = true) ∧ (config e0 exHist).msl.srv.enable = false ∧ (config e0 exHist).msl.cli.enable = false ∧
    (config e0 exHist).msl.services = [] ∧ (config e0 exHist).msl.gateway = {} ∧
    (∀ p ∈ sentPdps (config e0 exHist), p.ctx ≠ 0) ∧
    (∀ x ∈ exHist, x.words.head? = some (b "apn") → ∀ a ∈ x.words.tail, [] ∉ apnLabels a) := by decide +kernel

example : fileOf e0 (config e0 exHist) = some (["hlr", " reject-cause not-found congestion", " reject-cause no-proxy net-fail",
    " store-imei", " database /var/lib/hlr.db", " subscriber-create-on-demand 12 cs+ps", " gsup", "  bind ip 127.0.0.1",
    "  ipa-name unnamed-HLR", " euse a", " euse c", " ussd route prefix *#100# internal own-msisdn",
    " ussd route prefix *1 external c", " ussd default-route external a", " ncss-guard-timeout 0", " smsc entity s1",
    " smsc route 123 s1", " smsc default-route s1", " ps", "  pdp-profiles default", "   profile 3",
    "    apn internet.example", "   profile 1"].map b) ∧
    ussdFor (config e0 exHist) (b "*123#") = some (some (.inl (b "c"))) := by decide +kernel

theorem writeEuse_re {s t : St} (old new : List Ent) (ho : s.euses = old) (hn : t.euses = new)
    (hid : (new.map (·.id)).Nodup) (hnm : new.map (·.name) = old.map (·.name)) (h1 : ∀ r ∈ s.routes, RouteOk s r)
    (h2 : ∀ id, s.euseDefault = some id → ∃ x, deref s.euses id = some x) (hr : t.routes = s.routes.map (reroute old new))
    (hd : t.euseDefault = s.euseDefault.map (reid old new)) (hg : t.guard = s.guard) : writeEuse t = writeEuse s := by
  have key : ∀ {α : Type} (id : Nat) (f : Bytes → α), (∃ x, deref s.euses id = some x) →
      (deref t.euses (reid old new id)).map (fun x => f x.name) = (deref s.euses id).map fun x => f x.name := by
    rintro α id f ⟨x, hx⟩
    have := deref_reid (id := id) hid hnm (ho ▸ hx)
    obtain ⟨y, hy, hy2⟩ := Option.map_eq_some_iff.1 this
    rw [hx, hn, hy, Option.map_some, Option.map_some, hy2]
  have hrs : t.routes.map (writeRoute t) = s.routes.map (writeRoute s) := by
    rw [hr, List.map_map]
    refine List.map_congr_left fun r hrm => ?_
    show writeRoute t (reroute old new r) = _
    unfold writeRoute reroute
    dsimp only
    cases ht : r.tgt with
    | int i => rfl
    | ext id => exact key id (fun n => ((1, [Kw.text .ussd, Kw.text .route, Kw.text .prefix, r.pfx, Kw.text .external, n]) : Line)) (h1 r hrm id ht)
  have hdd : writeUssdDefault t = writeUssdDefault s := by
    unfold writeUssdDefault
    rw [hd]
    cases hdf : s.euseDefault with
    | none => rfl
    | some id => exact key id (fun n => [((1, [Kw.text .ussd, Kw.text .defaultRoute, Kw.text .external, n]) : Line)]) (h2 id hdf)
  have hnn : t.euses.map (fun x => ((1, [Kw.text .euse, x.name]) : Line)) = s.euses.map (fun x => (1, [Kw.text .euse, x.name])) := by
    have := congrArg (List.map fun n => ((1, [Kw.text .euse, n]) : Line)) hnm
    rw [List.map_map, List.map_map] at this
    rw [hn, ho]
    exact this
  unfold writeEuse
  rw [hrs, hdd, hnn, hg]

theorem writeSmsc_re {s t : St} (old new : List Ent) (ho : s.smscs = old) (hn : t.smscs = new)
    (hid : (new.map (·.id)).Nodup) (hnm : new.map (·.name) = old.map (·.name))
    (h1 : ∀ r ∈ s.smscRoutes, ∃ x, deref s.smscs r.smsc = some x)
    (h2 : ∀ id, s.smscDefault = some id → ∃ x, deref s.smscs id = some x) (hr : t.smscRoutes = s.smscRoutes.map (reSmsc old new))
    (hd : t.smscDefault = s.smscDefault.map (reid old new)) : writeSmsc t = writeSmsc s := by
  have key : ∀ {α : Type} (id : Nat) (f : Bytes → α), (∃ x, deref s.smscs id = some x) →
      (deref t.smscs (reid old new id)).map (fun x => f x.name) = (deref s.smscs id).map fun x => f x.name := by
    rintro α id f ⟨x, hx⟩
    have := deref_reid (id := id) hid hnm (ho ▸ hx)
    obtain ⟨y, hy, hy2⟩ := Option.map_eq_some_iff.1 this
    rw [hx, hn, hy, Option.map_some, Option.map_some, hy2]
  have hrs : t.smscRoutes.map (writeSmscRoute t) = s.smscRoutes.map (writeSmscRoute s) := by
    rw [hr, List.map_map]
    refine List.map_congr_left fun r hrm => ?_
    exact key r.smsc (fun n => ((1, [Kw.text .smsc, Kw.text .route, r.num, n]) : Line)) (h1 r hrm)
  have hdd : writeSmscDefault t = writeSmscDefault s := by
    unfold writeSmscDefault
    rw [hd]
    cases hdf : s.smscDefault with
    | none => rfl
    | some id => exact key id (fun n => [((1, [Kw.text .smsc, Kw.text .defaultRoute, n]) : Line)]) (h2 id hdf)
  have hnn : t.smscs.map (fun x => ((1, [Kw.text .smsc, Kw.text .entity, x.name]) : Line)) =
      s.smscs.map (fun x => (1, [Kw.text .smsc, Kw.text .entity, x.name])) := by
    have := congrArg (List.map fun n => ((1, [Kw.text .smsc, Kw.text .entity, n]) : Line)) hnm
    rw [List.map_map, List.map_map] at this
    rw [hn, ho]
    exact this
  unfold writeSmsc
  rw [hrs, hdd, hnn]

/-- C62: the same file is written again after it was read. -/
theorem c62_stable_partial (e : Env) (h : List Input) (hv : ∀ x ∈ h, x.valid = true)
    (noServer : (config e h).msl.srv.enable = false) (noClient : (config e h).msl.cli.enable = false)
    (noServices : (config e h).msl.services = [])
    (noHole : (config e h).pdpOn = true → ∀ p ∈ sentPdps (config e h), p.ctx ≠ 0)
    (apns : ∀ x ∈ h, x.words.head? = some (b "apn") → ∀ a ∈ x.words.tail, [] ∉ apnLabels a)
    {f : List Bytes} (hf : fileOf e (config e h) = some f) :
    ∃ t, readFile e f = some t ∧ fileOf e t = some f := by
  have hi := inv_config e h hv
  refine ⟨_, read_file hi (mslOff noServer noClient noServices) ?_ hf, ?_⟩
  · exact pdpsGood e h hv noHole apns
  · generalize config e h = s at *
    rw [← hf]
    unfold fileOf at hf ⊢
    congr 1
    obtain ⟨ls, hls, rfl⟩ := Option.map_eq_some_iff.1 hf
    unfold write at hls
    obtain ⟨u, hu, hls⟩ := Option.bind_eq_some_iff.1 hls
    obtain ⟨m, hms, -⟩ := Option.bind_eq_some_iff.1 hls
    obtain ⟨-, u1, u2⟩ := writeEuse_eq hu
    obtain ⟨-, m1, m2⟩ := writeSmsc_eq hms
    have hp : writePdps (reloaded s) = writePdps s := by
      unfold writePdps reloaded pdpSt
      cases hp : s.pdpOn with
      | true =>
        rw [if_pos rfl]
        dsimp only
        rw [List.take_left' rfl]
      | false => rfl
    have hmsl : writeMsl e s.msl = [] := mslOff noServer noClient noServices
    have hmsl2 : writeMsl e (reloaded s).msl = [] := by
      unfold reloaded
      obtain ⟨on, sl, n, hpd⟩ := pdpSt_fields s (smscSt s (euseSt s { hlrSt s with bind := s.bind, ipa := s.ipa }))
      rw [hpd]
      rfl
    have hhlr : writeHlr (reloaded s) = writeHlr s := by
      unfold reloaded
      obtain ⟨on, sl, n, hpd⟩ := pdpSt_fields s (smscSt s (euseSt s { hlrSt s with bind := s.bind, ipa := s.ipa }))
      rw [hpd]
      have hc : writeCod { (smscSt s (euseSt s { hlrSt s with bind := s.bind, ipa := s.ipa })) with pdpOn := on, slots := sl, num := n } = writeCod s := by
        unfold writeCod
        show (match s.cod with | .msisdnFromImsi => _ | .randMsisdn l => _ | .noMsisdn => _ | .disabled => _) = _
        cases hc : s.cod with
        | disabled => rfl
        | _ => simp [smscSt, euseSt, hlrSt, hc]
      unfold writeHlr
      rw [hc]
      rfl
    have hgs : writeGsup (reloaded s) = writeGsup s := by
      unfold reloaded
      obtain ⟨on, sl, n, hpd⟩ := pdpSt_fields s (smscSt s (euseSt s { hlrSt s with bind := s.bind, ipa := s.ipa }))
      rw [hpd]
      rfl
    have heu : writeEuse (reloaded s) = writeEuse s := by
      unfold reloaded
      obtain ⟨on, sl, n, hpd⟩ := pdpSt_fields s (smscSt s (euseSt s { hlrSt s with bind := s.bind, ipa := s.ipa }))
      rw [hpd]
      exact writeEuse_re s.euses _ rfl rfl (mkEnts_ids ..) (mkEnts_names ..) u1 u2 rfl rfl rfl
    have hsm : writeSmsc (reloaded s) = writeSmsc s := by
      unfold reloaded
      obtain ⟨on, sl, n, hpd⟩ := pdpSt_fields s (smscSt s (euseSt s { hlrSt s with bind := s.bind, ipa := s.ipa }))
      rw [hpd]
      exact writeSmsc_re s.smscs _ rfl rfl (mkEnts_ids ..) (mkEnts_names ..) m1 m2 rfl rfl
    unfold write
    rw [heu, hsm, hhlr, hgs, hmsl, hmsl2, hp]

/-! ## What is not read back -/

/-- With distributed GSM configured in any way, the written file cannot be read: the HLR does not
start any more.  The section `mslookup` comes before the line `ps`, which is then not in the section
`hlr`. -/
theorem c62_mslookup_violated (e : Env) (s : St)
    (h : s.msl.srv.enable = true ∨ s.msl.cli.enable = true ∨ s.msl.services ≠ []) {f : List Bytes} (hf : fileOf e s = some f) :
    readFile e f = none := by
  refine unreadable ?_ hf
  unfold writeMsl
  rw [if_neg]
  · simp
  · rcases h with h | h | h
    · simp [h]
    · simp [h]
    · cases hs : s.msl.services with
      | nil => exact absurd hs h
      | cons x l => simp

example : (config e0 [typed .mslookup ["server"]]).msl.srv.enable = true ∧
    fileOf e0 (config e0 [typed .mslookup ["server"]]) = some (["hlr", " reject-cause not-found plmn-not-allowed",
      " reject-cause no-proxy net-fail", " no subscriber-create-on-demand", " gsup", "  ipa-name unnamed-HLR", "mslookup",
      " server", " ps"].map b) := by decide +kernel

/-- A profile is not written if one before it was removed. -/
theorem c62_hole_violated : ∃ (h : List Input) (f : List Bytes) (t : St), (∀ x ∈ h, x.valid = true) ∧
    fileOf e0 (config e0 h) = some f ∧ readFile e0 f = some t ∧ (config e0 h).slots.any (fun p => p.ctx == 2) = true ∧
    t.slots.any (fun p => p.ctx == 2) = false :=
  ⟨[typed .ps ["pdp-profiles", "default"], typed .profiles ["profile", "1"], typed .profiles ["profile", "2"],
    typed .profiles ["no", "profile", "1"]], _, _, by decide +kernel, by rfl, by rfl, by decide +kernel, by decide +kernel⟩

/-- An APN that begins with a full stop makes a file that cannot be read. -/
theorem c62_apn_violated : ∃ (h : List Input) (f : List Bytes), (∀ x ∈ h, x.valid = true) ∧
    fileOf e0 (config e0 h) = some f ∧ readFile e0 f = none :=
  ⟨[typed .ps ["pdp-profiles", "default"], typed .profiles ["profile", "1"], typed (.profile 0) ["apn", ".internet"]], _,
    by decide +kernel, by rfl, by decide +kernel⟩

/-- A route to an EUSE that was removed is used after it was freed, by `write file` and for the
routing of USSD. -/
theorem c62_freed_violated : ∃ h : List Input, (∀ x ∈ h, x.valid = true) ∧
    fileOf e0 (config e0 h) = none ∧ ussdFor (config e0 h) (b "*100#") = none :=
  ⟨[typed .hlr ["euse", "a"], typed .hlr ["ussd", "route", "prefix", "*1", "external", "a"], typed .hlr ["no", "euse", "a"],
    typed .hlr ["euse", "a"]], by decide +kernel, by decide +kernel, by decide +kernel⟩

/-- With the mslookup client disabled, the gateway proxy, which is used all the same (hlr.c 528), is
not written. -/
theorem c62_gateway_violated : ∃ (h : List Input) (f : List Bytes) (t : St), (∀ x ∈ h, x.valid = true) ∧
    fileOf e0 (config e0 h) = some f ∧ readFile e0 f = some t ∧ (config e0 h).msl.gateway.nonzero = true ∧
    t.msl.gateway.nonzero = false :=
  ⟨[typed .mslookup ["client"], typed .client ["gateway-proxy", "127.0.0.1"], typed .mslookup ["no", "client"]], _, _,
    by decide +kernel, by rfl, by rfl, by decide +kernel, by decide +kernel⟩

end Verif.Config
