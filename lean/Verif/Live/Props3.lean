import Verif.Live.Props2
/-!
# C70, continued: when changing the configuration is safe
-/
namespace Verif.Live.Props
open Verif Verif.Db Verif.Gsup Verif.Sys Verif.Sys.Props Verif.Prov.Running Verif.Config.Spec Verif.Live Verif.Live.Spec

/-- A configuration without the mistakes of C64 and C69: the lines are words, no EUSE or SMSC is removed that a
route leads to, and the HLR's own name has no percent sign. -/
structure Orderly (e : Config.Env) (h : List Input) : Prop where
  tidy : Tidy e h
  smsc : Smsc.orderly e {} h = true
  name : 37 ∉ (config e h).ipa

/-- What an operator and the network must avoid.
* A line of configuration keeps the configuration orderly, and is no `no euse` for an EUSE that has a session.
* The configuration file that is read after a failure is orderly.
* A peer's identity and the source name of a message are no `BadName` (C69).
* A subscriber does not answer in a session that an EUSE began (C34).
* The row of a new subscriber can be read back (C69). -/
def Fine3 (e : Config.Env) (s : Live) : Ev3 → Prop
  | .cfg node words => Orderly e (s.hist ++ [⟨node, false, words⟩])
    ∧ ∀ n, Config.parse e node words = some (.noEuse n) → ∀ x ∈ s.sys.sess, ∀ y, x.u = .euse y → y.name ≠ n
  | .hlr ev boot => Orderly e boot ∧ (match ev with
    | .sys (.ccm _ (some n)) => ¬ BadName n
    | .sys (.rx c (some m) _) => ¬ BadName m.src ∧ ∀ k, s.sys.conn? c = some k → IsSs m.typ →
      nameIsEuse (mkReq k s.sys.nextReq m).source = false →
      ∀ x ∈ s.sys.sess, x.imsi = m.imsi → x.id = m.sessId → ∀ n, x.u = .euse n → x.isExternal = true
    | .sys (.db op _) => NotLu op
    | .vty _ (.create _) sc _ _ => sc[1]? ≠ some .ioerr
    | _ => True)

def Careful3 (base : Cfg) (e : Config.Env) (s : Live) : List Ev3 → Prop
  | [] => True
  | x :: l => Fine3 e s x ∧ Careful3 base e (step3 base e s x) l

/-! ## The EUSEs of the sessions stay configured -/

theorem id_eq {l : List Config.Ent} (hn : (l.map (·.id)).Nodup) {x y : Config.Ent} (hx : x ∈ l) (hy : y ∈ l) (h : x.id = y.id) : x = y := by
  induction l with
  | nil => cases hx
  | cons a l ih =>
    rw [List.map_cons, List.nodup_cons] at hn
    rcases List.mem_cons.1 hx with hx | hx
    · rcases List.mem_cons.1 hy with hy | hy
      · rw [hx, hy]
      · exact absurd (List.mem_map.2 ⟨y, hy, by rw [← h, hx]⟩) hn.1
    · rcases List.mem_cons.1 hy with hy | hy
      · exact absurd (List.mem_map.2 ⟨x, hx, by rw [h, hy]⟩) hn.1
      · exact ih hn.2 hx hy

theorem euses_exec {e : Config.Env} {s : Config.St} (hi : Config.Inv e s) (file : Bool) (node : Config.Node) (c : Config.Cmd)
    {x : Config.Ent} (hx : x ∈ s.euses) (hc : c ≠ .noEuse x.name) : x ∈ (Config.exec file node s c).2.2.euses := by
  by_cases hu : Config.isUssd c = true
  · cases c with
    | noEuse n =>
      unfold Config.exec
      dsimp only
      split
      · exact hx
      · rename_i y hy
        split
        · exact hx
        · refine List.mem_filter.2 ⟨hx, ?_⟩
          obtain ⟨h1, h2⟩ := Config.entFind_mem hy
          have : x.id ≠ y.id := fun h => hc (by rw [id_eq hi.euseIds hx h1 h, h2])
          simpa using this
    | euse n =>
      unfold Config.exec
      dsimp only
      split
      · exact hx
      · exact List.mem_append_left _ hx
    | _ =>
      first
        | (cases hu; done)
        | (unfold Config.exec
           try dsimp only
           repeat' split
           all_goals exact hx)
  · rw [(Config.exec_notUssd file node s (by simpa using hu)).1]
    exact hx

theorem config_snoc (e : Config.Env) (h : List Input) (x : Input) : config e (h ++ [x]) = after e (config e h) x := by
  unfold config
  rw [List.foldl_append]
  rfl

/-- A line of configuration other than `no euse` with that name. -/
theorem euses_after {base : Cfg} {e : Config.Env} {h : List Input} (hv : ∀ x ∈ h, x.valid = true) (x : Input) {y : Sys.Ent}
    (hy : y ∈ (cfgOf base (config e h)).euses) (hn : Config.parse e x.node x.words ≠ some (.noEuse y.name)) :
    y ∈ (cfgOf base (config e (h ++ [x]))).euses := by
  obtain ⟨z, hz, rfl⟩ := List.mem_map.1 hy
  refine List.mem_map.2 ⟨z, ?_, rfl⟩
  rw [config_snoc]
  unfold after
  cases hp : Config.parse e x.node x.words with
  | none => exact hz
  | some c => exact euses_exec (Config.inv_config e h hv) _ _ c hz (fun hc => hn (by rw [hp, hc]; rfl))

/-- What holds all the time. -/
structure AllOk3 (base : Cfg) (e : Config.Env) (s : Live) : Prop where
  ok : Prov.Running.AllOk s.sys
  conf : Orderly e s.hist
  sess : ∀ x ∈ s.sys.sess, ∀ n, x.u = .euse n → n ∈ (s.cfg base e).euses

theorem ssNew_conf {cfg : Cfg} {q : Req} {r : SsReq} {n : Sys.Ent} (h : (ssNew cfg q r).u = .euse n) (hok : EuseOk cfg) :
    n ∈ cfg.euses := by
  cases h2 : nameIsEuse q.source with
  | false => exact (ssNew_ext h h2 hok).2
  | true =>
    unfold ssNew at h
    dsimp only at h
    rw [h2] at h
    simp only [if_true] at h
    split at h
    · unfold euseByName at h
      rw [h2, if_pos rfl] at h
      split at h
      · rename_i y hy
        cases h
        exact List.mem_of_find?_eq_some hy
      · cases h
    · cases h

theorem step3_safe {base : Cfg} {e : Config.Env} {s : Live} (hs : AllOk3 base e s) (x : Ev3) (h : Fine3 e s x) :
    AllOk3 base e (step3 base e s x) := by
  cases x with
  | cfg node words =>
    refine ⟨hs.ok, h.1, fun x hx n hn => ?_⟩
    exact euses_after hs.conf.tidy.1 ⟨node, false, words⟩ (hs.sess x hx n hn) (fun hc => h.2 _ hc x hx n hn rfl)
  | hlr ev boot =>
    obtain ⟨hb, hf⟩ := h
    have hE : EuseOk (s.cfg base e) := euseOk_of base
      (Config.urel_config e s.hist {} {} hs.conf.tidy.1 (Config.inv_init e) ⟨rfl, rfl, rfl⟩ hs.conf.tidy.2).1
    have hS : SmscOk (s.cfg base e) := smscOk_of base
      (Config.srel_config e s.hist {} {} hs.conf.tidy.1 (Config.inv_init e) ⟨rfl, rfl, rfl⟩ hs.conf.smsc).1
    have hfine : Fine (s.cfg base e) s.sys ev := by
      cases ev with
      | sys ev =>
        refine ⟨hE, hS, hs.conf.name, ?_⟩
        cases ev with
        | ccm c n => cases n with
          | none => trivial
          | some n => exact hf
        | rx c m en => cases m with
          | none => trivial
          | some m =>
            refine ⟨hf.1, fun k hk hss => ?_⟩
            rintro ⟨h1, x, hx, h2, h3, n, h4, h5⟩
            rcases h5 with h5 | h5
            · rw [hf.2 k hk hss h1 x hx h2 h3 n h4] at h5; cases h5
            · exact h5 (hs.sess x hx n h4)
        | db op sc => exact hf
        | _ => trivial
      | vty ck c sc sc1 sc2 => cases c <;> first | exact hf | trivial
      | ctrl c sc => trivial
    have hok := step2_safe hs.ok ev hfine
    refine ⟨hok, ?_, ?_⟩
    · show Orderly e (if restarts (step2 (s.cfg base e) s.sys ev) = restarts s.sys then s.hist else boot)
      split
      · exact hs.conf
      · exact hb
    · intro x hx n hn
      obtain ⟨hre, h⟩ := step2_sess hs.ok.reach hs.ok.good.1 ev hok.ub hx
      have hcfg : (step3 base e s (.hlr ev boot)).cfg base e = s.cfg base e := by
        unfold Live.cfg
        rw [show (step3 base e s (.hlr ev boot)).hist =
          (if restarts (step2 (s.cfg base e) s.sys ev) = restarts s.sys then s.hist else boot) from rfl, if_pos hre]
      rw [hcfg]
      rcases h with ⟨y, hy, st, v, tm, rfl, -⟩ | ⟨c, m, env, rfl, hss, q, r, n1, n2, n3, n4, st, v, rfl⟩
      · exact hs.sess y hy n hn
      · exact ssNew_conf hn hE

theorem run3_safe {base : Cfg} {e : Config.Env} {s : Live} (hs : AllOk3 base e s) (l : List Ev3) (h : Careful3 base e s l) :
    AllOk3 base e (run3 base e s l) := by
  induction l generalizing s with
  | nil => exact hs
  | cons x l ih => exact ih (step3_safe hs x h.1) h.2

/-- C70: whatever is configured in between, a history without those mistakes has no undefined behaviour.
Missing: the mistakes, above all `no euse` and `no smsc entity` at the wrong time. -/
theorem c70_safe_partial (base : Cfg) {e : Config.Env} {h0 : List Input} (hh : Orderly e h0) {d : Db} (hU : Unique d) (hK : KeysOk d)
    (hP : PlainDb d) (l : List Ev3) (h : Careful3 base e ⟨h0, init d⟩ l) : (run3 base e ⟨h0, init d⟩ l).sys.ub = false :=
  (run3_safe (s := ⟨h0, init d⟩) ⟨init_ok ⟨hU, hK⟩ hP, hh, fun x hx => by cases hx⟩ l h).ok.ub

/-! ## Examples -/

/-- A line typed in the VTY. -/
def line (ws : List String) : Ev3 := .cfg .hlr (ws.map b)

/-- The configuration file: EUSE foo gets everything. -/
def exBoot : List Input :=
  [Config.typed .hlr ["euse", "foo"], Config.typed .hlr ["euse", "bar"], Config.typed .hlr ["ussd", "default-route", "external", "foo"],
   Config.typed .hlr ["smsc", "entity", "smsc1"], Config.typed .hlr ["smsc", "default-route", "smsc1"]]

def sysEv (ev : Sys.Ev) : Ev3 := .hlr (.sys ev) exBoot

/-- A subscriber calls foo; the default route is moved to bar; the same subscriber calls again. -/
def exMoved : List Ev3 :=
  exUssd.map sysEv ++ [sysEv (.rx 1 (some (ssMsg .begin 5 (b "*77#"))) {}), line ["no", "ussd", "default-route"],
    line ["ussd", "default-route", "external", "bar"], line ["ncss-guard-timeout", "0"],
    sysEv (.rx 1 (some (ssMsg .begin 6 (b "*77#"))) {}), sysEv (.rx 1 (some (ssMsg .continue_ 5 (b "2"))) {})]

/-- What was under way goes on with foo, what is new goes to bar; with a guard timer as it was when the
session began. -/
example :
    let s := run3 ussdCfg Config.e0 ⟨exBoot, init {}⟩ exMoved
    (ussdSent s.sys).take 3 = [(3, .continue_, b "2"), (4, .begin, b "*77#"), (3, .begin, b "*77#")] ∧ s.sys.ub = false
    ∧ s.sys.sess.map (fun x => (x.id, x.timer)) = [(5, true), (6, false)] ∧ restarts s.sys = 0 := by decide +kernel

/-- A session begun without a timer has one after its next CONTINUE message, if a guard time has been
configured by then. -/
example :
    let s := run3 ussdCfg Config.e0 ⟨exBoot, init {}⟩ (exMoved ++ [line ["ncss-guard-timeout", "20"],
      sysEv (.rx 1 (some (ssMsg .continue_ 6 (b "3"))) {})])
    s.sys.sess.map (fun x => (x.id, x.timer)) = [(5, true), (6, true)] ∧ s.sys.ub = false ∧ restarts s.sys = 0 := by decide +kernel

/-- After a restart the configuration is that of the file. -/
example :
    let s := run3 ussdCfg Config.e0 ⟨exBoot, init {}⟩ (exMoved ++ [sysEv .kill])
    s.hist.map (·.words) = exBoot.map (·.words) ∧ s.sys.sess.length = 0 ∧ restarts s.sys = 1
    ∧ (s.cfg ussdCfg Config.e0).euseDefault = some ⟨0, b "foo"⟩ := by decide +kernel

instance : DecidablePred (Tidy e) := fun h => by unfold Tidy; infer_instance

/-- Checks `Fine3`, for messages that are not about sessions or at a time when all are those of subscribers. -/
def fine3B (e : Config.Env) (s : Live) : Ev3 → Bool
  | .cfg node words =>
    let h := s.hist ++ [⟨node, false, words⟩]
    decide (Tidy e h) && Smsc.orderly e {} h && decide (37 ∉ (config e h).ipa)
      && (match Config.parse e node words with
        | some (.noEuse n) => s.sys.sess.all fun x => match x.u with
          | .euse y => decide (y.name ≠ n)
          | _ => true
        | _ => true)
  | .hlr ev boot => decide (Tidy e boot) && Smsc.orderly e {} boot && decide (37 ∉ (config e boot).ipa) && (match ev with
    | .sys (.ccm _ (some n)) => !decide (BadName n)
    | .sys (.rx _ (some m) _) => !decide (BadName m.src) && s.sys.sess.all (·.isExternal)
    | .sys (.db (.lu ..) _) => false
    | .sys _ => true
    | .vty _ (.create _) sc _ _ => decide (sc[1]? ≠ some .ioerr)
    | _ => true)

theorem fine3B_ok {e : Config.Env} {s : Live} {x : Ev3} (h : fine3B e s x = true) : Fine3 e s x := by
  cases x with
  | cfg node words =>
    unfold fine3B at h
    dsimp only at h
    rw [Bool.and_eq_true, Bool.and_eq_true, Bool.and_eq_true] at h
    obtain ⟨⟨⟨h1, h2⟩, h3⟩, h4⟩ := h
    refine ⟨⟨of_decide_eq_true h1, h2, of_decide_eq_true h3⟩, fun n hn x hx y hy => ?_⟩
    rw [hn] at h4
    have := List.all_eq_true.1 h4 x hx
    rw [hy] at this
    exact of_decide_eq_true this
  | hlr ev boot =>
    unfold fine3B at h
    rw [Bool.and_eq_true, Bool.and_eq_true, Bool.and_eq_true] at h
    obtain ⟨⟨⟨h1, h2⟩, h3⟩, h4⟩ := h
    refine ⟨⟨of_decide_eq_true h1, h2, of_decide_eq_true h3⟩, ?_⟩
    cases ev with
    | sys ev =>
      cases ev with
      | ccm c n => cases n with
        | none => trivial
        | some n => exact (by simpa using h4 : ¬ BadName n)
      | rx c m en => cases m with
        | none => trivial
        | some m =>
          have h4 : (!decide (BadName m.src) && s.sys.sess.all (·.isExternal)) = true := h4
          rw [Bool.and_eq_true] at h4
          exact ⟨by simpa using h4.1, fun k _ _ _ x hx _ _ _ _ => List.all_eq_true.1 h4.2 x hx⟩
      | db op sc => cases op <;> first
        | exact trivial
        | cases h4
      | _ => trivial
    | vty ck c sc sc1 sc2 =>
      cases c with
      | create i =>
        have h4 : decide (sc[1]? ≠ some .ioerr) = true := h4
        exact (of_decide_eq_true h4 : sc[1]? ≠ some .ioerr)
      | _ => trivial
    | ctrl c sc => trivial

def careful3B (base : Cfg) (e : Config.Env) (s : Live) : List Ev3 → Bool
  | [] => true
  | x :: l => fine3B e s x && careful3B base e (step3 base e s x) l

theorem careful3B_ok {base : Cfg} {e : Config.Env} {s : Live} {l : List Ev3} (h : careful3B base e s l = true) : Careful3 base e s l := by
  induction l generalizing s with
  | nil => trivial
  | cons x l ih =>
    rw [careful3B, Bool.and_eq_true] at h
    exact ⟨fine3B_ok h.1, ih h.2⟩

/-- The hypotheses of `c70_safe_partial` hold of the example, also when it goes on and foo is removed after its session
has ended. -/
example : Careful3 ussdCfg Config.e0 ⟨exBoot, init {}⟩ (exMoved ++ [sysEv (.rx 3 (some (ssRes .end_ 5 (b "ok"))) {}),
    line ["no", "euse", "foo"], sysEv (.rx 1 (some (ssMsg .begin 8 (b "*77#"))) {}), sysEv .kill]) :=
  careful3B_ok (by decide +kernel)

example : Orderly Config.e0 exBoot := ⟨by decide +kernel, by decide +kernel, by decide +kernel⟩

/-- C70 violated: `no euse` is accepted although a session of that EUSE is going on.  What the subscriber sends
next makes the HLR use what was freed. -/
theorem c70_removed_violated : ∃ l m, Tidy Config.e0 (run3 ussdCfg Config.e0 ⟨exBoot, init {}⟩ l).hist
    ∧ (run3 ussdCfg Config.e0 ⟨exBoot, init {}⟩ l).sys.ub = false
    ∧ (run3 ussdCfg Config.e0 ⟨exBoot, init {}⟩ (l ++ [sysEv (.rx 1 (some m) {})])).sys.ub = true
    ∧ Careful3 ussdCfg Config.e0 ⟨exBoot, init {}⟩ l.dropLast ∧ l.getLast? = some (line ["no", "euse", "foo"]) :=
  ⟨exMoved ++ [line ["no", "euse", "foo"]], ssMsg .continue_ 5 (b "3"), by decide +kernel, by decide +kernel, by decide +kernel,
    careful3B_ok (by decide +kernel), rfl⟩

/-- The hypotheses of `c70_ussd_partial` are met: the subscriber's next request. -/
example :
    let L := run3 ussdCfg Config.e0 ⟨exBoot, init {}⟩ exMoved
    Reached ussdCfg Config.e0 L ∧ Tidy Config.e0 L.hist
    ∧ target (ussd Config.e0 L.hist) { opcode := 0x3b, code := b "*77#" } = some (.inl (b "bar")) :=
  ⟨⟨_, _, _, Db.Props.unique_empty, rfl, by decide +kernel⟩, by decide +kernel, by decide +kernel⟩

/-- All of them together: it goes to bar. -/
example :
    let L := run3 ussdCfg Config.e0 ⟨exBoot, init {}⟩ exMoved
    let k : Conn := { id := 1, name := { len := 6, val := msc1 ++ List.replicate 122 0 }, ccm := some msc1 }
    let m := ssMsg .begin 8 (b "*77#")
    (step3 ussdCfg Config.e0 L (sysEv (.rx 1 (some m) {}))).sys.log = .tx 4 m none :: (received L.sys 1 k m).log := by
  intro L k m
  have hL : Reached ussdCfg Config.e0 L := ⟨_, _, _, Db.Props.unique_empty, rfl, by decide +kernel⟩
  have h := c70_ussd_partial hL (by decide +kernel) (c := 1) (k := k) (m := m)
    ⟨⟨by decide +kernel, by decide +kernel, isNDigits_spec.1 (by decide +kernel), .inl (by decide +kernel)⟩, .inl (by decide +kernel)⟩
    {} exBoot (by decide +kernel) (fun _ => rfl) (.inl rfl) (r := { opcode := 0x3b, invokeId := 1, code := b "*77#" })
    (by decide +kernel) rfl rfl (by decide +kernel) rfl (by decide +kernel)
  exact (h.1 (b "bar") (by decide +kernel) (by decide +kernel)).1 4 (by decide +kernel)

/-- That of `c70_refused`: the cause was changed. -/
example :
    let L := run3 exCfg Config.e0 ⟨[], init {}⟩ (exTwo.map sysEv ++ [line ["reject-cause", "not-found", "imsi-unknown"]])
    lastOf notFoundOf .plmnNotAllowed Config.e0 L.hist = .imsiUnknown ∧ lastOf codOf .disabled Config.e0 L.hist = .disabled := by
  decide +kernel

/-- Two location updates of one unknown subscriber wait, and one of another; then the cause is changed,
and the first subscriber's home is not found. -/
def exNoProxy : List Ev3 :=
  exWait.map sysEv ++ [line ["reject-cause", "no-proxy", "roaming-not-allowed"], sysEv (.lookup imsi9 none {})]

/-- That of `c70_noproxy`, with the waiting request of the other subscriber kept. -/
example :
    let L := run3 exCfg Config.e0 ⟨[], init {}⟩ exNoProxy.dropLast
    Reached exCfg Config.e0 L ∧ Failed none ∧ (L.sys.pending.filter (·.gsup.imsi == imsi9)).length = 2
    ∧ (lastOf noProxyOf .netFail Config.e0 L.hist).text = b "roaming-not-allowed"
    ∧ (lastOf noProxyOf .netFail Config.e0 L.hist).cause ≠ Config.Rej.cause .netFail :=
  ⟨⟨_, _, _, Db.Props.unique_empty, rfl, by decide +kernel⟩, fun _ h => (by cases h), by decide +kernel, by decide +kernel,
    by decide +kernel⟩

/-- What then happens. -/
example :
    let L := run3 exCfg Config.e0 ⟨[], init {}⟩ exNoProxy
    L.sys.pending.map (fun q => q.gsup.imsi) = [imsi8]
    ∧ (L.sys.log.filterMap fun o => match o with | .tx c M _ => some (c, M.typ, M.cause) | _ => none).take 2
      = [(2, SEND_AUTH_INFO + 1, some (.other 13)), (1, UPDATE_LOCATION + 1, some (.other 13))] := by
  decide +kernel

end Verif.Live.Props
