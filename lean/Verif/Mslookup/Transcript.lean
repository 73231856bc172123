import Verif.Mslookup.Mdns
import Verif.Mslookup.Client
/-! # The mslookup tests of the project, replayed on the model

The outputs recorded in `tests/mslookup/mslookup_test.err`, `mdns_test.err` and
`mslookup_client_test.err`.  These are tests of the model against the behaviour recorded from the
real program: `#guard` evaluates them during the build and fails it if a result differs. -/
namespace Verif.Mslookup.Transcript
open Verif Verif.Mslookup Verif.Mslookup.Mdns

/-! ## tests/mslookup/mslookup_test.err -/

/-- The domains of mslookup_test.c 27-50 (except NULL, which the model has no value for) and the
recorded results. -/
def domains : List (String × Except Int (String × Id)) :=
  [("gsup.hlr.123456789012345.imsi", .ok ("gsup.hlr", .imsi (b "123456789012345"))),
   ("gsup.hlr.1.imsi", .error (-5)),
   ("sip.voice.1.msisdn", .ok ("sip.voice", .msisdn (b "1"))),
   ("a.b.c.imsi", .error (-5)),
   ("", .error (-2)),
   (".", .error (-3)),
   ("...", .error (-4)),
   (".....", .error (-4)),
   (".....1.msisdn", .ok ("....", .msisdn (b "1"))),
   ("fofdndsf. d.ads ofdsf. ads.kj.1243455132.msisdn",
     .ok ("fofdndsf. d.ads ofdsf. ads.kj", .msisdn (b "1243455132"))),
   ("foo.12345678901234567890.imsi", .error (-11)),
   ("gsup.hlr.123456789012345.what", .error (-7)),
   ("blarg", .error (-2)),
   ("blarg.", .error (-3)),
   ("blarg.1.", .error (-4)),
   ("blarg.1.msisdn", .ok ("blarg", .msisdn (b "1"))),
   ("blarg.1.msisdn.", .error (-4)),
   (".1.msisdn", .error (-3)),
   ("1.msisdn", .error (-3)),
   ("qwertyuiopasdfghjklzxcvbnmqwertyuiopasdfghjklzxcvbnmqwertyuiopasdfghjklzxcvbnmm.1.msisdn",
     .error (-11)),
   ("qwerty.1.qwertyuiopasdfghjklzxcvbnmqwertyuiopasdfghjklzxcvbnmqwertyuiopasdfghjklzxcvbnmm",
     .error (-7))]

/-- Whether the two results are the same. -/
def sameParse : Except Int Query → Except Int (String × Id) → Bool
  | .error x, .error y => x == y
  | .ok q, .ok (s, i) => q.service == b s && decide (q.id = i)
  | _, _ => false

#guard domains.filter (fun x => !sameParse (parseDomain (b x.1)) x.2) |>.isEmpty

/-! ## tests/mslookup/mdns_test.err -/

-- test_enc_dec_rfc_header, the typical use case (the other one sets fields never used).
#guard headerEncode { id := 1337, qr := false, qdcount := 1 }
  == [0x05, 0x39, 0, 0, 0, 1, 0, 0, 0, 0, 0, 0]
#guard headerDecode [0x05, 0x39, 0, 0, 0, 1, 0, 0, 0, 0, 0, 0]
  == { id := 1337, qr := false, qdcount := 1 }
#guard headerDecode [0x00, 0x2a, 0x97, 0xa3, 0x04, 0xd2, 0x04, 0x57, 0x08, 0xae, 0x0d, 0x05]
  == { id := 42, qr := true, qdcount := 1234, ancount := 1111 }

-- test_enc_dec_rfc_header_einval: a message of 11 bytes.
#guard requestDecode [0, 0, 0, 0, 0, 0, 0, 0, 0, 0, 0] matches .error
#guard answerDecode [0, 0, 0, 0, 0, 0, 0, 0, 0, 0, 0] matches .error

/-- The encoded name hlr.1234567.imsi. -/
def encName : Bytes := [0x03, 0x68, 0x6c, 0x72, 0x07, 0x31, 0x32, 0x33, 0x34, 0x35, 0x36, 0x37,
  0x04, 0x69, 0x6d, 0x73, 0x69, 0x00]

-- test_enc_dec_rfc_question.
#guard [(255, 1, [0x00, 0xff, 0x00, 0x01]), (1, 255, [0x00, 0x01, 0x00, 0xff]),
    (28, 255, [0x00, 0x1c, 0x00, 0xff])].all (fun x =>
  questionEncode (b "hlr.1234567.imsi") x.1 x.2.1 == encName ++ x.2.2
  && (match questionDecode (encName ++ x.2.2) with
      | .ok q => q == (b "hlr.1234567.imsi", x.1, x.2.1)
      | _ => false))

-- test_enc_dec_rfc_question_null.
#guard questionDecode [0, 0, 0, 0, 0] matches .error

-- test_enc_dec_rfc_record; the model encodes records with a time to live of 0, the test has 1234.
#guard recordEncode (b "hlr.1234567.imsi") { type := 1, data := b "10.42.2.1" }
  == encName ++ [0x00, 0x01, 0x00, 0x01, 0, 0, 0, 0, 0x00, 0x09] ++ b "10.42.2.1"
#guard match recordDecode (encName ++ [0x00, 0x01, 0x00, 0x01, 0, 0, 0x04, 0xd2, 0x00, 0x09]
    ++ b "10.42.2.1") with
  | .ok r => r == (b "hlr.1234567.imsi", { type := 1, data := b "10.42.2.1" }, 37)
  | _ => false

/-- The records of mdns_test.c 257-266. -/
def recA : Record := { type := 1, data := [23, 42, 47, 11] }
def recAAAA : Record := { type := 28, data := [0x11, 0x22, 0x33, 0x44, 0x55, 0x66, 0x77, 0x88,
  0x99, 0xaa, 0xbb, 0xcc, 0xdd, 0xee, 0xff, 0x00] }
def recTxt (k v : String) : Record := (txtEncode (b k) (b v)).getD { type := 0, data := [] }
def recBadTxt : Record := { type := 16, data := 5 :: b "12345" }
def recBad : Record := { type := 0, data := [] }

/-- The addresses of mdns_test.c 280-283. -/
def hostV4 : Sys.Addr := { v6 := false, ip := 0x172a2f0b, port := 444 }
def hostV6 : Sys.Addr := { v6 := true, ip := 0x112233445566778899aabbccddeeff00, port := 666 }

/-- test_result_from_answer: the records and what was recorded, `none` for an error. -/
def answers : List (List Record × Option Result) :=
  let age := recTxt "age" "3"; let p4 := recTxt "port" "444"; let p6 := recTxt "port" "666"
  [([age, recA, p4], some { rc := .result, age := 3, v4 := hostV4 }),
   ([age, recAAAA, p6], some { rc := .result, age := 3, v6 := hostV6 }),
   ([age, recA, p4, recAAAA, p6], some { rc := .result, age := 3, v4 := hostV4, v6 := hostV6 }),
   ([age, recA, p4, recA], none), ([age, recAAAA, p4, recAAAA], none),
   ([age, recAAAA, recBadTxt], none), ([age, age], none), ([p4], none), ([age, p4], none),
   ([age, recAAAA, recTxt "hello" "world"], none), ([age, recBad], none), ([recA, p4], none),
   ([age, recA], none), ([age, recAAAA, p6, recA], none)]

#guard answers.length == 14
#guard answers.all (fun x => match resultOf x.1, x.2 with
  | .ok r, some e => decide (r = e)
  | .error, none => true
  | _, _ => false)

/-! ## tests/mslookup/mslookup_client_test.err -/

open Client

/-- `struct fake_lookup_request` (mslookup_client_fake.c 35-40), times in milliseconds. -/
structure FakeReq where
  handle : Nat
  query : Query
  at_ : Nat

/-- `struct osmo_mslookup_fake_response` (mslookup_client_fake.h). -/
structure FakeResp where
  wait : Nat
  id : Id
  service : Bytes
  result : Result
  sent : Bool := false

/-- The test program: the client, the fake method (mslookup_client_fake.c 27-33) and when the
timer of each request was armed. -/
structure Test where
  now : Nat := 0
  client : Client := {}
  reqs : List FakeReq := []
  resps : List FakeResp

/-- osmo_mslookup_client_request() with the fake method (fake_lookup_request,
mslookup_client_fake.c 46-66). -/
def Test.ask (t : Test) (service : String) (id : Id) (minWait timeout : Nat) : Test :=
  let q : Query := { service := b service, id := id }
  let r := request (react {} 0) (fun _ => []) t.client q minWait timeout
  { t with client := r.2, reqs := t.reqs ++ [{ handle := r.1, query := q, at_ := t.now }] }

/-- fake_lookup_request_cleanup (mslookup_client_fake.c 68-84), for the requests that the client
has dropped. -/
def Test.clean (t : Test) : Test :=
  { t with reqs := t.reqs.filter (fun r => (t.client.getReq r.handle).isSome) }

/-- The first reply that is due for a request (mslookup_client_fake.c 98-123): it is marked as
sent. -/
def due (now : Nat) (r : FakeReq) : List FakeResp → Option (Result × List FakeResp)
  | [] => none
  | x :: l =>
    if !x.sent && idCmp r.query.id x.id == 0 && r.query.service == x.service
        && decide (x.wait ≤ now - r.at_) then some (x.result, { x with sent := true } :: l)
    else (due now r l).map (fun y => (y.1, x :: y.2))

/-- fake_lookup_async_response (mslookup_client_fake.c 86-127). -/
def Test.respond (t : Test) : Test :=
  (t.reqs.foldl (fun (t : Test) r =>
    match due t.now r t.resps with
    | none => t
    | some (res, l) => { t with client := rxResult (react {} 0) t.client r.handle res, resps := l }) t).clean

/-- The timers of the client: a request's timer expires so long after it was asked (in this test
no timer is armed twice). -/
def Test.timers (t : Test) : Test :=
  (t.client.reqs.foldl (fun (t : Test) r =>
    match t.reqs.find? (·.handle == r.handle) with
    | some f => if f.at_ + r.timer ≤ t.now then { t with client := timeoutCb (react {} 0) t.client r.uid } else t
    | none => t) t).clean

/-- fake_time_passes(0, 200 ms) (mslookup_client_test.c 150-160): the fake method's timer of
100 ms has expired, then those of the client. -/
def Test.pass (t : Test) : Test := { t with now := t.now + 200 }.respond.timers

/-- What the client did, with the time. -/
def Test.timeline : Nat → Test → List (Nat × List (Nat × Obs))
  | 0, _ => []
  | n + 1, t =>
    let t' := t.pass
    let new := (t'.client.log.take (t'.client.log.length - t.client.log.length)).reverse
    if new.isEmpty then timeline n t' else (t'.now, new) :: timeline n t'

/-- An address. -/
def v4 (ip port : Nat) : Sys.Addr := { v6 := false, ip := ip, port := port }

/-- The results of mslookup_client_test.c 32-133.  The second and the fourth have an IPv6
address in them that is marked as IPv4 (line 70 and 106), kept here as an IPv6 address. -/
def r1 : Result := { rc := .result, v4 := v4 0x0c223807 42, age := 0
                     v6 := { v6 := true, ip := 0x00be00ef00ed00ca00fe00fa00ce0001, port := 42 } }
def r2 : Result := { rc := .result, v4 := v4 0x42424242 666, age := 423
                     v6 := { v6 := true, ip := 0x66666666666600000000000000000006, port := 666 } }
def r3 : Result := { rc := .result, v4 := v4 0x70707070 23, age := 235 }
def r4 : Result := { rc := .result, v4 := v4 0x63636363 999, age := 335
                     v6 := { v6 := true, ip := 0x99999999999900000000000000000009, port := 999 } }
def r5 : Result := { rc := .result, v4 := v4 0x63636363 999, age := 999 }

/-- mslookup_client_test.c 187-238: four requests; the timeout of 1 ms is below the minimum
waiting time. -/
def start : Test :=
  let t : Test := { resps :=
    [{ wait := 1000, id := .imsi (b "1234567"), service := b "gsup.hlr", result := r1 },
     { wait := 600, id := .msisdn (b "112"), service := b "sip.voice", result := r2 },
     { wait := 800, id := .msisdn (b "112"), service := b "sip.voice", result := r3 },
     { wait := 1200, id := .msisdn (b "112"), service := b "sip.voice", result := r4 },
     { wait := 1500, id := .msisdn (b "112"), service := b "sip.voice", result := r5 }] }
  (((t.ask "gsup.hlr" (.imsi (b "1234567")) 2000 1).ask "sip.voice" (.msisdn (b "112")) 3000 1).ask
    "smpp.sms" (.msisdn (b "00000")) 5000 1).ask "gsup.hlr" (.msisdn (b "666")) 10000 1

/-- What was recorded, up to the time 6 s: results arriving and callbacks (`tick`: the timer that
made the callback). -/
def recorded : List (Nat × List (Nat × Obs)) :=
  [(600, [(1, .rx r2)]),
   (800, [(1, .rx r3)]),
   (1000, [(0, .rx r1), (0, .cb { r1 with last := true })]),
   (1200, [(1, .rx r4)]),
   (1600, [(1, .rx r5)]),
   (3000, [(1, .tick), (1, .cb { r3 with last := true })]),
   (5000, [(2, .tick), (2, .cb { rc := .notFound, last := true })])]

#guard start.timeline 30 == recorded
-- At the end the fourth request is left, and cancelling it removes it.
#guard ((List.range 30).foldl (fun t _ => t.pass) start).client.reqs.map (·.uid) == [3]
#guard (((List.range 30).foldl (fun t _ => t.pass) start).client.cancel 4).reqs.isEmpty

end Verif.Mslookup.Transcript
