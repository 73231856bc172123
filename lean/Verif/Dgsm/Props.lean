import Verif.Dgsm.Lemmas
import Verif.Tool.Witness
/-!
# C84: calls and messages go where the lookup says
-/
namespace Verif.Dgsm
open Verif Verif.Mslookup Verif.Tool Verif.Sys

/-! ## What the scripts read -/

theorem ascii_all {s : Bytes} (h : ∀ c ∈ s, c < 128) : ascii s = some s := by
  unfold ascii
  rw [if_pos]
  rw [List.all_eq_true]
  exact fun c hc => decide_eq_true (h c hc)

theorem plain_low {s : Bytes} (h : Tool.Spec.Plain s) : ∀ c ∈ s, c < 128 := by
  intro c hc
  have h2 : c.toNat ≤ 126 := (h c hc).2.1
  show c.toNat < 128
  omega

theorem blank_low {s : Bytes} (h : Tool.Spec.Blank s) : ∀ c ∈ s, c < 128 := by
  intro c hc
  rcases h c hc with e | e | e | e <;> rw [e] <;> decide

theorem low_cons {c : UInt8} {s : Bytes} (hc : c < 128) (hs : ∀ c ∈ s, c < 128) : ∀ x ∈ c :: s, x < 128 := by
  intro x hx
  rcases List.mem_cons.1 hx with e | h
  · rw [e]; exact hc
  · exact hs x h

theorem low_append {s t : Bytes} (hs : ∀ c ∈ s, c < 128) (ht : ∀ c ∈ t, c < 128) : ∀ c ∈ s ++ t, c < 128 := by
  intro x hx
  rcases List.mem_append.1 hx with h | h
  · exact hs x h
  · exact ht x h

theorem low_one {c : UInt8} (hc : c < 128) : ∀ x ∈ [c], x < 128 := low_cons hc (fun _ h => by cases h)

mutual
theorem text_low {j : Tool.Spec.Json} {s : Bytes} (h : Tool.Spec.Text j s) : ∀ c ∈ s, c < 128 := by
  cases h with
  | str s hp => exact low_cons (by decide) (low_append (plain_low hp) (low_one (by decide)))
  | num n ds hd =>
    intro c hc
    have h2 : c.toNat ≤ 57 := (hd.2.1 c hc).2
    show c.toNat < 128
    omega
  | true => decide +kernel
  | false => decide +kernel
  | arr l s hi => exact low_cons (by decide) (low_append (items_low hi) (low_one (by decide)))
  | obj l s hi => exact low_cons (by decide) (low_append (members_low hi) (low_one (by decide)))
theorem items_low {l : List Tool.Spec.Json} {s : Bytes} (h : Tool.Spec.Items l s) : ∀ c ∈ s, c < 128 := by
  cases h with
  | one j s ht => exact text_low ht
  | more j l s w t ht hw hi => exact low_append (text_low ht) (low_cons (by decide) (low_append (blank_low hw) (items_low hi)))
theorem members_low {l : List (Bytes × Tool.Spec.Json)} {s : Bytes} (h : Tool.Spec.Members l s) : ∀ c ∈ s, c < 128 := by
  cases h with
  | one k j w s hp hw ht =>
    exact low_cons (by decide) (low_append (plain_low hp) (low_cons (by decide) (low_cons (by decide) (low_append (blank_low hw) (text_low ht)))))
  | more k j l w s w' t hp hw ht hw' hi =>
    exact low_append (low_cons (by decide) (low_append (plain_low hp) (low_cons (by decide) (low_cons (by decide) (low_append (blank_low hw) (text_low ht))))))
      (low_cons (by decide) (low_append (blank_low hw') (members_low hi)))
end

/-- How the program writes an address. -/
def addrOf (env : Env) (a : Addr) : Tool.Spec.Json := .arr [.str (env.ipText a), .str (Mdns.dec a.port)]

theorem lines_one (x : Bytes) : Tool.Spec.lines [x] = x ++ [10] := by simp [Tool.Spec.lines]

theorem map_read (x : Bytes) (j : Tool.Spec.Json) (ha : ascii x = some x) (hl : loads x = some j) :
    (some (some x)).map (fun o => (o.bind ascii).bind loads) = some (some j) := by
  simp [ha, hl]

theorem answer_v4 (env : Env) (text : Bytes) (r : Result) :
    ∃ l, Tool.Spec.answer (cfgOf env) text (some r) = .obj l
    ∧ getItem (b "v4") (.obj l) = if r.rc = .result ∧ r.v4.nonzero = true then some (addrOf env r.v4) else none := by
  have e1 : (b "query" == b "v4") = false := by decide +kernel
  have e2 : (b "result" == b "v4") = false := by decide +kernel
  have e3 : (b "last" == b "v4") = false := by decide +kernel
  have e4 : (b "age" == b "v4") = false := by decide +kernel
  have e6 : (b "v6" == b "v4") = false := by decide +kernel
  refine ⟨_, rfl, ?_⟩
  unfold getItem Tool.Spec.addrJson addrOf
  by_cases h : r.rc = .result
  · by_cases h4 : r.v4.nonzero = true
    · by_cases h6 : r.v6.nonzero = true
      · simp [h, h4, h6, List.find?, e6, cfgOf]
      · simp [h, h4, h6, List.find?, cfgOf]
    · by_cases h6 : r.v6.nonzero = true
      · simp [h, h4, h6, List.find?, e1, e2, e3, e4, e6]
      · simp [h, h4, h6, List.find?, e1, e2, e3, e4]
  · simp [h, List.find?, e1, e2, e3, e4]

/-! ## The lookup of a script -/

/-- The program that looks up the number for a script. -/
def lookup (env : Env) (service id : Bytes) (turns : List (List Tool.Ev)) : Tool := run (cfgOf env) [queryStr service id] turns

theorem program_lookup (env : Env) {service id : Bytes} (hs : service = b "sip.voice" ∨ service = b "smpp.sms") (turns : List (List Tool.Ev)) :
    program env (argv service id) turns = some (lookup env service id turns) :=
  program_eq env _ _ (query_word service id (by rcases hs with e | e <;> rw [e] <;> decide +kernel)) turns rfl

theorem lookup_one (env : Env) {service id : Bytes} (hs : service = b "sip.voice" ∨ service = b "smpp.sms") (hn : Spec.Number id)
    (turns : List (List Tool.Ev)) (ht : Spec.Lookup turns) :
    One (.started none (queryStr service id) 0 (queryOf service id) 1000 1000) (lookup env service id turns) := by
  refine run_one env (read_query env hs hn).1 ?_ turns ht
  have h1 : serviceValid service = true := by rcases hs with e | e <;> rw [e] <;> decide +kernel
  have h2 : idValid (.msisdn id) = true := by
    show msisdnValid id = true
    unfold msisdnValid isNDigits
    rw [Props.digits_iff.2 hn.2.2]
    simp [hn.1, hn.2.1]
  show (serviceValid service && idValid (.msisdn id)) = true
  rw [h1, h2]; rfl

/-- The query of the lookup, its callbacks, and the end of the program. -/
theorem lookup_facts (env : Env) {service id : Bytes} (hs : service = b "sip.voice" ∨ service = b "smpp.sms") (hn : Spec.Number id)
    (turns : List (List Tool.Ev)) (ht : Spec.Lookup turns) :
    let t := lookup env service id turns
    Client.Spec.Ok (Client.Spec.hist 0 t.client.log)
    ∧ (∃ h, Client.Obs.issued h 1000 1000 ∈ Client.Spec.hist 0 t.client.log)
    ∧ Tool.Spec.results 0 t.log = Tool.Spec.callbacksOf (Client.Spec.hist 0 t.client.log)
    ∧ Tool.Spec.printed t.log = Tool.Spec.lines (Tool.Spec.toPrint (cfgOf env) t.log) := by
  have h1 := lookup_one env hs hn turns ht
  have hu : (lookup env service id turns).client.uids ≤ 4294967294 := by rw [h1.uids]; decide
  obtain ⟨r1, -, r3⟩ := Tool.Props.c66_results_partial (cfgOf env) [queryStr service id] turns hu h1.killed 0
  obtain ⟨q1, -⟩ := Tool.Props.c66_query_partial (cfgOf env) [queryStr service id] turns hu h1.killed
  have hm : Tool.Obs.started none (queryStr service id) 0 (queryOf service id) 1000 1000 ∈ (lookup env service id turns).log := by
    obtain ⟨l, e, -⟩ := h1.log
    rw [e]; simp
  exact ⟨r3, (q1 _ _ _ _ _ _ hm).2, r1, Tool.Props.c66_stdout_partial (cfgOf env) [queryStr service id] turns hu h1.killed⟩

theorem lookup_done (env : Env) (hip : Tool.Spec.IpText (cfgOf env)) {service id : Bytes} (hs : service = b "sip.voice" ∨ service = b "smpp.sms")
    (hn : Spec.Number id) (turns : List (List Tool.Ev)) (ht : Spec.Lookup turns)
    (hage : Spec.Ages (Client.Spec.hist 0 (lookup env service id turns).client.log)) (hx : (lookup env service id turns).exited = true) :
    ∃ a l, Spec.Chosen (Client.Spec.hist 0 (lookup env service id turns).client.log) a
      ∧ queryMslookup env service id turns = some (some (.obj l)) ∧ getItem (b "v4") (.obj l) = a.map (addrOf env) := by
  have h1 := lookup_one env hs hn turns ht
  have hu : (lookup env service id turns).client.uids ≤ 4294967294 := by rw [h1.uids]; decide
  obtain ⟨f1, ⟨h, f2⟩, f3, f4⟩ := lookup_facts env hs hn turns ht
  obtain ⟨g1, g2, g3⟩ := read_query env hs hn
  have hne : turns ≠ [] := by
    intro e
    rw [e] at hx
    have : (start (cfgOf env) [queryStr service id]).exited = false := (start_exited _ _).1
    exact Bool.false_ne_true (this.symm.trans hx)
  have hend := ((Tool.Props.c67_exit_partial (cfgOf env) [queryStr service id] turns hne hu h1.killed).1.1 (h1.exited hx)).2.2
  obtain ⟨l, el, hl⟩ := h1.log
  obtain ⟨p1, p2⟩ := later_prints (cfgOf env) l hl (line := queryStr service id) (q := queryOf service id) (mn := 1000) (to := 1000)
  rw [← el] at p1 p2
  rcases one_callback f1 f2 (by decide) (by decide) with ⟨c1, -⟩ | ⟨r, c1, c2, -, c3⟩
  · have := (p1 (f3.trans c1)).1
    have hend : Tool.Spec.running (lookup env service id turns).log = [] := hend
    rw [hend] at this
    cases this
  · have hp := (p2 r c2 (f3.trans c1)).2
    have hcb : ∀ l : List Client.Obs, r ∈ Tool.Spec.callbacksOf l → Client.Obs.cb r ∈ l := by
      intro l hm
      induction l with
      | nil => cases hm
      | cons o l ih =>
        cases o with
        | cb r' =>
          rw [Tool.Spec.callbacksOf, List.mem_append, List.mem_singleton] at hm
          rcases hm with hm | hm
          · exact List.mem_cons_of_mem _ (ih hm)
          · rw [hm]; exact List.mem_cons_self
        | issued a c d => exact List.mem_cons_of_mem _ (ih hm)
        | rx a => exact List.mem_cons_of_mem _ (ih hm)
        | tick => exact List.mem_cons_of_mem _ (ih hm)
        | cancel => exact List.mem_cons_of_mem _ (ih hm)
    have hr : r.age < 2 ^ 32 := hage r (.inr (hcb _ (by rw [c1]; exact List.mem_singleton.2 rfl)))
    have htext := Tool.Props.c68_json_partial (cfgOf env) rfl hip (queryStr service id) _ 1000 1000 (readQuery_asks.1 g1) (by rw [g2]; exact g3) r hr
    have hout : Tool.Spec.printed (lookup env service id turns).log = fmt (cfgOf env) (Tool.Spec.domain (queryStr service id)) (some r) ++ [10] := by
      have f4 : Tool.Spec.printed (lookup env service id turns).log = _ := f4
      rw [f4, hp, lines_one]
    obtain ⟨m, hm1, hm2⟩ := answer_v4 env (Tool.Spec.domain (queryStr service id)) r
    have hq : queryMslookup env service id turns = some (some (.obj m)) := by
      unfold queryMslookup checkOutput
      rw [program_lookup env hs turns]
      dsimp only
      rw [if_pos hx, hout]
      have h10 : Tool.Spec.Blank [10] := by intro c hc; rw [List.mem_singleton] at hc; exact .inr (.inr (.inl hc))
      exact map_read _ _ (ascii_all (low_append (text_low htext) (low_one (by decide)))) ((loads_text htext h10).trans (congrArg some hm1))
    rcases c3 with ⟨d1, d2⟩ | ⟨d1, x, d2, d3⟩
    · refine ⟨none, m, .inl ⟨d1, rfl⟩, hq, ?_⟩
      rw [hm2, if_neg (by rw [d2]; exact fun h => by cases h.1)]; rfl
    · refine ⟨_, m, .inr ⟨x, d2, rfl⟩, hq, ?_⟩
      rw [hm2, ← d3.1]
      by_cases hz : r.v4.nonzero = true
      · rw [if_pos ⟨d1, hz⟩, if_pos hz]; rfl
      · rw [if_neg (fun h => hz h.2), if_neg hz]; rfl

theorem lookup_open (env : Env) {service id : Bytes} (hs : service = b "sip.voice" ∨ service = b "smpp.sms") (hn : Spec.Number id)
    (turns : List (List Tool.Ev)) (ht : Spec.Lookup turns) (hne : turns ≠ []) (hx : (lookup env service id turns).exited = false) :
    Client.Spec.Open (Client.Spec.hist 0 (lookup env service id turns).client.log)
    ∧ Client.Obs.tick ∉ Client.Spec.hist 0 (lookup env service id turns).client.log
    ∧ ∃ r, (lookup env service id turns).client.req? 0 = some r ∧ r.timer = 1000 := by
  have h1 := lookup_one env hs hn turns ht
  have hu : (lookup env service id turns).client.uids ≤ 4294967294 := by rw [h1.uids]; decide
  obtain ⟨f1, ⟨h, f2⟩, f3, -⟩ := lookup_facts env hs hn turns ht
  have hg := run_good (cfgOf env) [queryStr service id] turns hu h1.killed
  obtain ⟨r1, r2, -⟩ := Tool.Props.c66_results_partial (cfgOf env) [queryStr service id] turns hu h1.killed 0
  obtain ⟨e1, e2⟩ := run_ended (cfgOf env) [queryStr service id] turns hne hu h1.killed
  obtain ⟨l, el, hl⟩ := h1.log
  obtain ⟨p1, p2⟩ := later_prints (cfgOf env) l hl (line := queryStr service id) (q := queryOf service id) (mn := 1000) (to := 1000)
  rw [← el] at p1 p2
  have hnot : ¬ ((lookup env service id turns).exited = true) := by rw [hx]; exact Bool.false_ne_true
  have hopen : Client.Spec.Open (Client.Spec.hist 0 (lookup env service id turns).client.log) := by
    refine r2.1 ⟨Tool.Spec.domain (queryStr service id), ?_⟩
    rcases one_callback f1 f2 (by decide) (by decide) with ⟨c1, -⟩ | ⟨r, c1, c2, -, -⟩
    · have := (p1 (f3.trans c1)).1
      show (0, Tool.Spec.domain (queryStr service id)) ∈ Tool.Spec.running (lookup env service id turns).log
      rw [this]; exact List.mem_singleton.2 rfl
    · refine absurd (e1.2 ⟨rfl, ?_, (p2 r c2 (f3.trans c1)).1⟩) hnot
      have hans : ∀ l : List Tool.Obs, Tool.Spec.results 0 l = [r] → Tool.Spec.answered l ≠ 0 := by
        intro l hr
        induction l with
        | nil => cases hr
        | cons o l ih =>
          cases o with
          | result u r' =>
            rw [Tool.Spec.answered]
            split
            · exact Nat.succ_ne_zero _
            · rename_i hl
              rw [Tool.Spec.results] at hr
              split at hr
              · cases hh : Tool.Spec.results 0 l with
                | nil => rw [hh] at hr; cases hr; exact absurd c2 hl
                | cons a t => rw [hh] at hr; simp at hr
              · exact ih hr
          | refused o l' => exact Nat.succ_ne_zero _
          | accepted n => exact ih hr
          | asked n d => exact ih hr
          | ended n => exact ih hr
          | started a b' c d e f => exact ih hr
          | exit => exact ih hr
          | line n s => exact ih hr
          | closed n => exact ih hr
          | stdout s => exact ih hr
      exact hans _ (f3.trans c1)
  obtain ⟨dom, hdom⟩ := r2.2 hopen
  have hlive : 0 ∈ live (lookup env service id turns).client := by
    have := hg.1.live
    show 0 ∈ live (run (cfgOf env) [queryStr service id] turns).client
    rw [this, List.mem_reverse, List.mem_map]
    exact ⟨_, hdom, rfl⟩
  obtain ⟨r, hr⟩ := req?_live.2 hlive
  obtain ⟨hm, e⟩ := Client.req?_some hr
  obtain ⟨-, -, b3, -⟩ := hg.1.rest.inv.base r hm
  have hE := hopen.2.1
  have hL := hg.1.rest.inv.live r hm (by simp) (by rw [e]; exact hE)
  rw [e] at b3 hL
  obtain ⟨-, b1, b2⟩ := Client.issued_unique f1 f2 b3
  have hph : Client.Spec.phases r.minWait r.timeout = 1 := by rw [← b1, ← b2]; decide
  have hticks := hL.ticks
  rw [hph] at hticks
  have hexp : Client.Spec.expiries (Client.Spec.hist 0 (lookup env service id turns).client.log) = 0 := by
    have : Client.Spec.expiries (Client.Spec.hist 0 (lookup env service id turns).client.log) + _ = 1 := hticks
    split at this <;> omega
  have htick : Client.Obs.tick ∉ Client.Spec.hist 0 (lookup env service id turns).client.log := fun hc => tick_counts hc hexp
  refine ⟨hopen, htick, r, hr, ?_⟩
  have hdue := (hg.1.rest.qt 0 r hr).2
  cases hw : r.waiting with
  | true =>
    rw [hdue, b1]
    unfold Client.due
    rw [hw, if_pos rfl]
  | false =>
    rcases (hL.told hw).1 with ⟨h', to', hi⟩ | hi
    · obtain ⟨-, e0, -⟩ := Client.issued_unique f1 f2 hi
      cases e0
    · exact absurd hi htick

theorem route_none (m : Bytes) {j : Tool.Spec.Json} (h : getItem (b "v4") j = none) : route m (some j) = .hangup (b "UNALLOCATED_NUMBER") := by
  simp only [route, Option.bind_some, h]

theorem route_some (m : Bytes) {env : Env} {a : Addr} {j : Tool.Spec.Json} (h : getItem (b "v4") j = some (addrOf env a)) :
    route m (some j) = .bridge (b "sofia/internal/sip:" ++ m ++ b "@" ++ env.ipText a ++ b ":" ++ Mdns.dec a.port) := by
  simp only [route, Option.bind_some, h, addrOf, truthy, List.isEmpty_cons, Bool.not_false, Bool.not_true, Bool.false_eq_true, if_false, unpack, dialStr]

theorem route_decides (m : Bytes) (j : Option Tool.Spec.Json) : route m j ≠ .waiting := by
  unfold route
  split
  · exact fun h => by cases h
  · split
    · exact fun h => by cases h
    · split
      · exact fun h => by cases h
      · exact fun h => by cases h

theorem canHandle_iff (p : Pdu) : canHandle p = true ↔ p.deliver = true ∧ p.destTon ≠ 1 := by
  unfold canHandle
  cases p.deliver <;> simp

theorem forward_none (tx : Bytes → Bytes → Bool) (p : Pdu) {l : List (Bytes × Tool.Spec.Json)} (h : getItem (b "v4") (.obj l) = none) :
    forward tx p (some (.obj l)) = .done 8 none := by
  simp only [forward, h]

theorem forward_some (tx : Bytes → Bytes → Bool) (p : Pdu) {env : Env} {a : Addr} {l : List (Bytes × Tool.Spec.Json)}
    (h : getItem (b "v4") (.obj l) = some (addrOf env a)) :
    forward tx p (some (.obj l)) = if tx (env.ipText a) (Mdns.dec a.port) then
      .done 0 (some (Sent.mk (env.ipText a) (Mdns.dec a.port) p.source p.dest p.registered p.text)) else .raised := by
  simp only [forward, h, addrOf, truthy, List.isEmpty_cons, Bool.not_false, Bool.not_true, Bool.false_eq_true, if_false, unpack]

theorem forward_decides (tx : Bytes → Bytes → Bool) (p : Pdu) (j : Option Tool.Spec.Json) : forward tx p j ≠ .waiting := by
  unfold forward
  split
  · exact fun h => by cases h
  · split
    · split
      · exact fun h => by cases h
      · split
        · exact fun h => by cases h
        · split
          · exact fun h => by cases h
          · split
            · exact fun h => by cases h
            · exact fun h => by cases h
    · exact fun h => by cases h

/-! ## C84 -/

/-- **C84.** The scripts look up the telephone number, and nothing else: for the voice service of SIP and for the
SMS service of SMPP, with a minimum wait and a timeout of 1000 milliseconds. -/
theorem c84_asks (env : Env) (m : Bytes) (hn : Spec.Number m) (turns : List (List Tool.Ev)) (ht : Spec.Lookup turns)
    (service : Bytes) (hs : service = b "sip.voice" ∨ service = b "smpp.sms") :
    ∃ t line, program env (argv service m) turns = some t
      ∧ Tool.Obs.started none line 0 { service := service, id := .msisdn m } 1000 1000 ∈ t.log
      ∧ Tool.Spec.queries t.log = [(none, line)] := by
  have h1 := lookup_one env hs hn turns ht
  obtain ⟨l, e, hl⟩ := h1.log
  refine ⟨_, queryStr service m, program_lookup env hs turns, by rw [e]; exact List.mem_append_right _ (List.mem_singleton.2 rfl), ?_⟩
  rw [e]
  have : ∀ l : List Tool.Obs, (∀ o ∈ l, Later o) → ∀ s, Tool.Spec.queries (l ++ [s]) = Tool.Spec.queries [s] := by
    intro l hl s
    induction l with
    | nil => rfl
    | cons o l ih =>
      rw [List.cons_append, Tool.Spec.queries, ih (fun x hx => hl x (by simp [hx]))]
      rcases hl o (by simp) with ⟨u, r, rfl⟩ | ⟨s, rfl⟩ | rfl <;> exact List.append_nil _
  rw [this l hl]
  rfl

/-- **C84.** A call to a telephone number is decided when the lookup has ended: it is bridged to that number at
the IPv4 address and the port of the youngest result that arrived, and hung up if that has no IPv4 address or
if no result arrived.

Missing: for a destination that is not a telephone number the handler may never come to an end
(`c84_hang_violated`), or bridge the call to an address that nobody reported (`c84_forged_violated`). -/
theorem c84_call_partial (env : Env) (hip : Tool.Spec.IpText (cfgOf env)) (m : Bytes) (hn : Spec.Number m) (turns : List (List Tool.Ev))
    (ht : Spec.Lookup turns) (t : Tool) (hp : program env (argv (b "sip.voice") m) turns = some t)
    (hage : Spec.Ages (Client.Spec.hist 0 t.client.log)) (hd : handler env m turns ≠ .waiting) :
    ∃ a, Spec.Chosen (Client.Spec.hist 0 t.client.log) a ∧ handler env m turns = match a with
      | some a => .bridge (b "sofia/internal/sip:" ++ m ++ b "@" ++ env.ipText a ++ b ":" ++ Mdns.dec a.port)
      | none => .hangup (b "UNALLOCATED_NUMBER") := by
  rw [program_lookup env (.inl rfl) turns] at hp
  cases hp
  have hx : (lookup env (b "sip.voice") m turns).exited = true := by
    cases e : (lookup env (b "sip.voice") m turns).exited with
    | true => rfl
    | false =>
      refine absurd ?_ hd
      unfold handler queryMslookup checkOutput
      rw [program_lookup env (.inl rfl) turns]
      dsimp only
      rw [e]
      rfl
  obtain ⟨a, l, h1, h2, h3⟩ := lookup_done env hip (.inl rfl) hn turns ht hage hx
  refine ⟨a, h1, ?_⟩
  unfold handler
  rw [h2]
  dsimp only
  cases a with
  | none => exact route_none m h3
  | some a => exact route_some m h3

/-- **C84.** The handler has to wait for no longer than the lookup takes: the call is decided, after a turn of
the program's main loop, unless the lookup is still under way and its timer, of 1000 milliseconds, has not
expired. -/
theorem c84_call_in_time (env : Env) (m : Bytes) (hn : Spec.Number m) (turns : List (List Tool.Ev)) (ht : Spec.Lookup turns) (hne : turns ≠ [])
    (t : Tool) (hp : program env (argv (b "sip.voice") m) turns = some t) (hw : handler env m turns = .waiting) :
    Client.Spec.Open (Client.Spec.hist 0 t.client.log) ∧ Client.Obs.tick ∉ Client.Spec.hist 0 t.client.log
    ∧ ∃ r, t.client.req? 0 = some r ∧ r.timer = 1000 := by
  rw [program_lookup env (.inl rfl) turns] at hp
  cases hp
  refine lookup_open env (.inl rfl) hn turns ht hne ?_
  cases e : (lookup env (b "sip.voice") m turns).exited with
  | false => rfl
  | true =>
    exfalso
    unfold handler queryMslookup checkOutput at hw
    rw [program_lookup env (.inl rfl) turns] at hw
    dsimp only at hw
    rw [if_pos e] at hw
    exact route_decides _ _ hw

/-- **C84.** A message to a telephone number, in any notation but the international one, is passed on when the
lookup has ended: unchanged, to the IPv4 address and the port of the youngest result that arrived, and then
acknowledged.  Without such an address it is answered with a system error, and if it cannot be delivered there
is an exception; nothing is sent then.

Missing: as with calls, the number has to be a telephone number (`c84_hang_violated`). -/
theorem c84_sms_partial (env : Env) (hip : Tool.Spec.IpText (cfgOf env)) (tx : Bytes → Bytes → Bool) (p : Pdu) (hp1 : p.deliver = true) (hp2 : p.destTon ≠ 1)
    (hn : Spec.Number p.dest) (turns : List (List Tool.Ev)) (ht : Spec.Lookup turns) (t : Tool)
    (hp : program env (argv (b "smpp.sms") p.dest) turns = some t) (hage : Spec.Ages (Client.Spec.hist 0 t.client.log))
    (hd : rxDeliverSm env none tx p turns ≠ .waiting) :
    ∃ a, Spec.Chosen (Client.Spec.hist 0 t.client.log) a ∧ rxDeliverSm env none tx p turns = match a with
      | some a => if tx (env.ipText a) (Mdns.dec a.port) then .done 0 (some (Sent.mk (env.ipText a) (Mdns.dec a.port) p.source p.dest p.registered p.text)) else .raised
      | none => .done 8 none := by
  rw [program_lookup env (.inr rfl) turns] at hp
  cases hp
  have hcan : canHandle p = true := (canHandle_iff p).2 ⟨hp1, hp2⟩
  have hx : (lookup env (b "smpp.sms") p.dest turns).exited = true := by
    cases e : (lookup env (b "smpp.sms") p.dest turns).exited with
    | true => rfl
    | false =>
      refine absurd ?_ hd
      unfold rxDeliverSm
      rw [hcan, if_neg (by decide)]
      dsimp only
      unfold queryMslookup checkOutput
      rw [program_lookup env (.inr rfl) turns]
      dsimp only
      rw [e]
      rfl
  obtain ⟨a, l, h1, h2, h3⟩ := lookup_done env hip (.inr rfl) hn turns ht hage hx
  refine ⟨a, h1, ?_⟩
  unfold rxDeliverSm
  rw [hcan, if_neg (by decide)]
  dsimp only
  rw [h2]
  dsimp only
  cases a with
  | none => exact forward_none tx p h3
  | some a => exact forward_some tx p h3

/-- **C84.** Messages that are not for delivery, or for an international number, are answered with a system
error without a lookup, and all others with the status that was asked for, if one was (`--always-fail`). -/
theorem c84_sms_refused (env : Env) (fail : Option Nat) (tx : Bytes → Bytes → Bool) (p : Pdu) (turns : List (List Tool.Ev)) :
    (p.deliver = false ∨ p.destTon = 1 → rxDeliverSm env fail tx p turns = .done 8 none)
    ∧ (p.deliver = true → p.destTon ≠ 1 → ∀ n, fail = some n → rxDeliverSm env fail tx p turns = .done n none) := by
  constructor
  · intro h
    have hcan : canHandle p = false := by
      cases hc : canHandle p with
      | false => rfl
      | true =>
        obtain ⟨h1, h2⟩ := (canHandle_iff p).1 hc
        rcases h with h | h
        · rw [h1] at h; cases h
        · exact absurd h h2
    unfold rxDeliverSm
    rw [hcan, if_pos (by decide)]
  · rintro h1 h2 n rfl
    have hcan : canHandle p = true := (canHandle_iff p).2 ⟨h1, h2⟩
    unfold rxDeliverSm
    rw [hcan, if_neg (by decide)]

/-- **C84.** Nor does a message wait for longer than the lookup takes. -/
theorem c84_sms_in_time (env : Env) (fail : Option Nat) (tx : Bytes → Bytes → Bool) (p : Pdu) (hn : Spec.Number p.dest) (turns : List (List Tool.Ev))
    (ht : Spec.Lookup turns) (hne : turns ≠ []) (t : Tool) (hp : program env (argv (b "smpp.sms") p.dest) turns = some t)
    (hw : rxDeliverSm env fail tx p turns = .waiting) :
    Client.Spec.Open (Client.Spec.hist 0 t.client.log) ∧ Client.Obs.tick ∉ Client.Spec.hist 0 t.client.log
    ∧ ∃ r, t.client.req? 0 = some r ∧ r.timer = 1000 := by
  rw [program_lookup env (.inr rfl) turns] at hp
  cases hp
  refine lookup_open env (.inr rfl) hn turns ht hne ?_
  cases e : (lookup env (b "smpp.sms") p.dest turns).exited with
  | false => rfl
  | true =>
    exfalso
    unfold rxDeliverSm at hw
    split at hw
    · cases hw
    · cases fail with
      | some n => cases hw
      | none =>
        dsimp only at hw
        unfold queryMslookup checkOutput at hw
        rw [program_lookup env (.inr rfl) turns] at hw
        dsimp only at hw
        rw [if_pos e] at hw
        exact forward_decides _ _ _ hw

/-! ## Examples -/

def exEnv : Env := { isIp := fun _ => true, ipText := Tool.Props.exIp }

theorem exIp : Tool.Spec.IpText (cfgOf exEnv) := Tool.Props.exIpText _ rfl

/-- Two results arrive, then the timer expires. -/
def exTurns : List (List Tool.Ev) := [[.rx 1 (Tool.Props.exAddr 7 false)], [.rx 1 (Tool.Props.exAddr 3 false)], [.timeout 0]]

/-- Two results arrive, the younger one with an IPv6 address only. -/
def exTurns6 : List (List Tool.Ev) :=
  [[.rx 1 (Tool.Props.exAddr 7 false)], [.rx 1 { rc := .result, v6 := { v6 := true, ip := 1, port := 5060 }, age := 3 }], [.timeout 0]]

theorem exLookup : Spec.Lookup exTurns ∧ Spec.Lookup exTurns6 ∧ Spec.Lookup [[.timeout 0]] := by
  refine ⟨?_, ?_, ?_⟩
  · intro evs hevs e he
    simp only [exTurns, List.mem_cons, List.not_mem_nil, or_false] at hevs
    rcases hevs with h | h | h <;> (rw [h, List.mem_singleton] at he; rw [he])
    · exact .inl ⟨_, _, rfl⟩
    · exact .inl ⟨_, _, rfl⟩
    · exact .inr ⟨_, rfl⟩
  · intro evs hevs e he
    simp only [exTurns6, List.mem_cons, List.not_mem_nil, or_false] at hevs
    rcases hevs with h | h | h <;> (rw [h, List.mem_singleton] at he; rw [he])
    · exact .inl ⟨_, _, rfl⟩
    · exact .inl ⟨_, _, rfl⟩
    · exact .inr ⟨_, rfl⟩
  · intro evs hevs e he
    rw [List.mem_singleton] at hevs
    rw [hevs, List.mem_singleton] at he
    exact .inr ⟨_, he⟩

theorem exNumber : Spec.Number (b "49123") := ⟨by decide +kernel, by decide +kernel, by decide +kernel⟩

/-- The hypotheses of C84's theorems can be met: a call that is bridged, one that is hung up, one that waits. -/
example : handler exEnv (b "49123") exTurns = .bridge (b "sofia/internal/sip:49123@1.2.3.4:5060")
    ∧ handler exEnv (b "49123") [[.timeout 0]] = .hangup (b "UNALLOCATED_NUMBER")
    ∧ handler exEnv (b "49123") (exTurns.take 2) = .waiting := by
  decide +kernel

theorem exHist : Client.Spec.hist 0 (lookup exEnv (b "sip.voice") (b "49123") exTurns).client.log
    = [.cb (Tool.Props.exAddr 3 true), .tick, .rx (Tool.Props.exAddr 3 false), .rx (Tool.Props.exAddr 7 false), .issued 1 1000 1000] := by
  decide +kernel

example : Spec.Ages (Client.Spec.hist 0 (lookup exEnv (b "sip.voice") (b "49123") exTurns).client.log) := by
  rw [exHist]
  intro r h
  simp at h
  rcases h with (h | h) | h <;> rw [h] <;> decide

def exPdu : Pdu := { dest := b "49123", source := b "Alice", registered := 1, text := b "Hello" }

/-- A message that is passed on, one for which nothing is found, one the SMSC of which cannot be reached. -/
example : rxDeliverSm exEnv none (fun _ _ => true) exPdu exTurns
      = .done 0 (some { host := b "1.2.3.4", port := b "5060", source := b "Alice", dest := b "49123", registered := 1, text := b "Hello" })
    ∧ rxDeliverSm exEnv none (fun _ _ => true) exPdu [[.timeout 0]] = .done 8 none
    ∧ rxDeliverSm exEnv none (fun _ _ => false) exPdu exTurns = .raised
    ∧ rxDeliverSm exEnv none (fun _ _ => true) exPdu (exTurns.take 1) = .waiting
    ∧ rxDeliverSm exEnv none (fun _ _ => true) { exPdu with destTon := 1 } exTurns = .done 8 none
    ∧ rxDeliverSm exEnv (some 254) (fun _ _ => true) exPdu exTurns = .done 254 none := by
  decide +kernel

/-! ## Violations -/

/-- C84 is violated: a call to something that is not a telephone number, such as `*100#`, is neither bridged nor hung
up.  The query is refused, and the program waits in its main loop without a timer or a connection. -/
theorem c84_hang_violated : ∃ m : Bytes, ¬ Spec.Number m ∧ handler exEnv m [] = .waiting
    ∧ ∃ t, program exEnv (argv (b "sip.voice") m) [] = some t ∧ t.client.reqs = [] ∧ t.socks = [] ∧ t.exited = false := by
  refine ⟨b "*100#", ?_, by decide +kernel, lookup exEnv (b "sip.voice") (b "*100#") [], program_lookup exEnv (.inl rfl) [],
    by decide +kernel, by decide +kernel, by decide +kernel⟩
  intro h
  exact absurd h.2.2 (by decide +kernel)

/-- A destination with quotes in it. -/
def exForged : Bytes := b "a\",\"v4\":[\"6.6.6.6\",\"66\"],\"c\":\"d.49"

/-- C84 is violated: whoever can choose the destination of a call can choose the server it is bridged to.  No
result has arrived, and the call goes to an address from the destination itself. -/
theorem c84_forged_violated : ∃ (m : Bytes) (turns : List (List Tool.Ev)) (t : Tool), Spec.Lookup turns
    ∧ program exEnv (argv (b "sip.voice") m) turns = some t ∧ Client.Spec.arrived (Client.Spec.hist 0 t.client.log) = []
    ∧ handler exEnv m turns = .bridge (b "sofia/internal/sip:" ++ m ++ b "@6.6.6.6:66") :=
  ⟨exForged, [[.timeout 0]], lookup exEnv (b "sip.voice") exForged [[.timeout 0]], exLookup.2.2, program_lookup exEnv (.inl rfl) _,
    by decide +kernel, by decide +kernel⟩

/-- An address that could be used is not always used: a younger result without an IPv4 address hides it. -/
theorem c84_hidden_violated : ∃ (turns : List (List Tool.Ev)) (t : Tool) (r : Result), Spec.Lookup turns
    ∧ program exEnv (argv (b "sip.voice") (b "49123")) turns = some t ∧ r ∈ Client.Spec.arrived (Client.Spec.hist 0 t.client.log)
    ∧ r.v4.nonzero = true ∧ handler exEnv (b "49123") turns = .hangup (b "UNALLOCATED_NUMBER") :=
  ⟨exTurns6, lookup exEnv (b "sip.voice") (b "49123") exTurns6, Tool.Props.exAddr 7 false, exLookup.2.1, program_lookup exEnv (.inl rfl) _,
    by decide +kernel, by decide +kernel, by decide +kernel⟩

end Verif.Dgsm
