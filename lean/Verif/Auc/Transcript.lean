import Verif.Auc.Model
/-! # The tests of the vector generation of the project, replayed on the model

The outputs recorded in `tests/auc/auc_test.err` and `auc_ts_55_205_test_sets.err` (the 29 calls of
auc_compute_vectors that deliver vectors, and the refused ones).  The cryptographic functions are
the table of the recorded values: the model has to ask for exactly the recorded (key, sequence number,
random challenge), otherwise it gets none.  These are tests of the model against the behaviour
recorded from the real program: `#guard` evaluates them during the build and fails it if a result
differs. -/
namespace Verif.Auc.Transcript
open Verif Verif.Db Verif.Auc

/-- A recorded call: the 2G key; algorithm, key, OPC and previous sequence number; rand_auts and auts;
the vectors: rand, sqn, autn, kc, sres. -/
structure Call where
  ki : Option String
  k3 : Option (Algo × String × String × Nat)
  auts : Option (String × String)
  vecs : List (String × Option Nat × String × String × String)

def hx (s : String) : Bytes := (hexparse (b s)).getD []

/-- auc_test.err. -/
def recorded : List Call := [
  { ki := some "eb215756028d60e3275e613320aec880", k3 := none, auts := none
    vecs := [("39fa2f4e3d523d8619a73b4f65c3e14d", none, "", "241a5b16aeb8e400", "429d5b27")] },
  { ki := some "eb215756028d60e3275e613320aec880", k3 := none, auts := none
    vecs := [("39fa2f4e3d523d8619a73b4f65c3e14d", none, "", "241a5b16aeb8e400", "429d5b27")] },
  { ki := some "eb215756028d60e3275e613320aec880", k3 := some (.milenage, "eb215756028d60e3275e613320aec880", "fb2a3d1b360f599abab99db8669f8308", 31), auts := none
    vecs := [("39fa2f4e3d523d8619a73b4f65c3e14d", some 32, "8704f5ba55d30000541dde77ea5b1d8c", "241a5b16aeb8e400", "429d5b27")] },
  { ki := some "eb215756028d60e3275e613320aec880", k3 := some (.milenage, "eb215756028d60e3275e613320aec880", "fb2a3d1b360f599abab99db8669f8308", 31), auts := none
    vecs := [("39fa2f4e3d523d8619a73b4f65c3e14d", some 32, "8704f5ba55d30000541dde77ea5b1d8c", "241a5b16aeb8e400", "429d5b27")] },
  { ki := none, k3 := some (.milenage, "eb215756028d60e3275e613320aec880", "fb2a3d1b360f599abab99db8669f8308", 31), auts := none
    vecs := [("39fa2f4e3d523d8619a73b4f65c3e14d", some 32, "8704f5ba55d30000541dde77ea5b1d8c", "059a4f668f6fbe39", "9b36efdf")] },
  { ki := none, k3 := some (.milenage, "eb215756028d60e3275e613320aec880", "fb2a3d1b360f599abab99db8669f8308", 31), auts := none
    vecs := [("39fa2f4e3d523d8619a73b4f65c3e14d", some 32, "8704f5ba55d30000541dde77ea5b1d8c", "059a4f668f6fbe39", "9b36efdf")] },
  { ki := none, k3 := some (.milenage, "eb215756028d60e3275e613320aec880", "fb2a3d1b360f599abab99db8669f8308", 31), auts := some ("39fa2f4e3d523d8619a73b4f65c3e14d", "979498b1f72d3e28c59fa2e72f9c")
    vecs := [("897210a0f7de278f0b8213098e098a3f", some 24, "c6b9790dad4b00000cf322869ea6a481", "7526fc13c5976685", "0ad888ef")] },
  { ki := none, k3 := some (.milenage, "eb215756028d60e3275e613320aec880", "fb2a3d1b360f599abab99db8669f8308", 23), auts := none
    vecs := [("897210a0f7de278f0b8213098e098a3f", some 24, "c6b9790dad4b00000cf322869ea6a481", "7526fc13c5976685", "0ad888ef"), ("9a8321b108ef38a01c93241a9f1a9b50", some 25, "79a5113eb0910000be6020540503ffc5", "aef73dd515e86c15", "882b1d59"), ("ab9432c2190049b12da4352bb02bac61", some 26, "24b018d46c3b00009c7e1b47f3a19b2b", "f0eaf8cb19e0758d", "cd6f0df5")] },
  { ki := none, k3 := some (.milenage, "eb215756028d60e3275e613320aec880", "fb2a3d1b360f599abab99db8669f8308", 26), auts := some ("39fa2f4e3d523d8619a73b4f65c3e14d", "979498b1f72d3e28c59fa2e72f9c")
    vecs := [("897210a0f7de278f0b8213098e098a3f", some 24, "c6b9790dad4b00000cf322869ea6a481", "7526fc13c5976685", "0ad888ef"), ("9a8321b108ef38a01c93241a9f1a9b50", some 25, "79a5113eb0910000be6020540503ffc5", "aef73dd515e86c15", "882b1d59"), ("ab9432c2190049b12da4352bb02bac61", some 26, "24b018d46c3b00009c7e1b47f3a19b2b", "f0eaf8cb19e0758d", "cd6f0df5")] },
  { ki := none, k3 := some (.xor3g, "000102030405060708090a0b0c0d0e0f", "00000000000000000000000000000000", 0), auts := none
    vecs := [("b5039c57e4a75051551d1a390a71ce48", some 0, "54e0a256565d0000b5029e54e0a25656", "98e880384887f9fe", "0ec81877")] }]

/-- auc_ts_55_205_test_sets.err. -/
def recordedSets : List Call := [
  { ki := none, k3 := some (.milenage, "465b5ce8b199b49faa5f0a2ee238a6bc", "cd63cb71954a9f4e48a5994e37a02baf", 31), auts := none
    vecs := [("23553cbe9637a89d218ae64dae47bf35", some 32, "aa689c64835000002bb2bf2f1faba139", "eae4be823af9a08b", "46f8416a")] },
  { ki := none, k3 := some (.milenage, "fec86ba6eb707ed08905757b1bb44b8f", "1006020f0a478bf6b699f15c062e42b3", 31), auts := none
    vecs := [("9f7c8d021accf4db213ccff0c7f71a6a", some 32, "33484dc2134b000091ec125f4840ed64", "aa01739b8caa976d", "8c308a5e")] },
  { ki := none, k3 := some (.milenage, "9e5944aea94b81165c82fbf9f32db751", "a64a507ae1a2a98bb88eb4210135dc87", 31), auts := none
    vecs := [("ce83dbc54ac0274a157c17f80d017bd6", some 32, "f0b9c08ad00e00005da4ccbbdfa29310", "9a8ec95f408cc507", "cfbce3fe")] },
  { ki := none, k3 := some (.milenage, "4ab1deb05ca6ceb051fc98e77d026a84", "dcf07cbd51855290b92a07a9891e523e", 31), auts := none
    vecs := [("74b0cd6031a1c8339b2b6ce2b8c4a186", some 32, "31e11a60913800006a7003718d5d82e5", "cdc1dc0841b81a22", "9655e265")] },
  { ki := none, k3 := some (.milenage, "6c38a116ac280c454f59332ee35c8c4f", "3803ef5363b947c6aaa225e58fae3934", 31), auts := none
    vecs := [("ee6466bc96202c5a557abbeff8babf63", some 32, "45b0f69ab04c000053f2a822f2b3e824", "df75bc5ea899879f", "13688f17")] },
  { ki := none, k3 := some (.milenage, "2d609d4db0ac5bf0d2c0de267014de0d", "c35a0ab0bcbfc9252caff15f24efbde0", 31), auts := none
    vecs := [("194aa756013896b74b4a2a3b0af4539e", some 32, "7e6455f34cd300004a2a9f2f3a529b8c", "84b417ae3aeab4f3", "553d00b3")] },
  { ki := none, k3 := some (.milenage, "a530a7fe428fad1082c45eddfce13884", "27953e49bc8af6dcc6e730eb80286be3", 31), auts := none
    vecs := [("3a4c2b3245c50eb5c71d08639395764d", some 32, "88196c47984f00000a50c5f4056ccb68", "3b4e244cdc60ce03", "59f1a44a")] },
  { ki := none, k3 := some (.milenage, "d9151cf04896e25830bf2e08267b8360", "c4c93effe8a08138c203d4c27ce4e3d9", 31), auts := none
    vecs := [("f761e5e93d603feb730e27556cb8a2ca", some 32, "82a0f5287a5100006d6c0ff132426479", "8d4ec01de597acfe", "50588861")] },
  { ki := none, k3 := some (.milenage, "a0e2971b6822e8d354a18cc235624ecb", "82a26f22bba9e9488f949a10d98e9cc4", 31), auts := none
    vecs := [("08eff828b13fdb562722c65c7f30a9b2", some 32, "a2f858aa9e7d00001c14f5fcd445bc46", "d8debc4ffbcd60aa", "cde6b027")] },
  { ki := none, k3 := some (.milenage, "0da6f7ba86d5eac8a19cf563ac58642d", "0db1071f8767562ca43a0a64c41e8d08", 31), auts := none
    vecs := [("679ac4dbacd7d233ff9d6806f4149ce3", some 32, "4c539a26e1da000071cc0b769fd1aa96", "f0eaa50a1edcebb7", "02d13acd")] },
  { ki := none, k3 := some (.milenage, "77b45843c88e58c10d202684515ed430", "d483afae562409a326b5bb0b20c4d762", 31), auts := none
    vecs := [("4c47eb3076dc55fe5106cb2034b8cd78", some 32, "30ff25cdadd60000e08a00f7ed54d6fe", "82dbab7f83f063da", "44389d01")] },
  { ki := none, k3 := some (.milenage, "729b17729270dd87ccdf1bfe29b4e9bb", "228c2f2f06ac3268a9e616ee16db4ba1", 31), auts := none
    vecs := [("311c4c929744d675b720f3b7e9b1cbd0", some 32, "5380d158cfc30000f4e1436e9f67e4b2", "3c66cb98cab2d33d", "03e0fd84")] },
  { ki := none, k3 := some (.milenage, "d32dd23e89dc662354ca12eb79dd32fa", "d22a4b4180a5325708a5ff70d9f67ec7", 31), auts := none
    vecs := [("cf7d0ab1d94306950bf12018fbd46887", some 32, "217af492728d00003bd338249751de80", "9612b5d88a4130bb", "be73b3dc")] },
  { ki := none, k3 := some (.milenage, "af7c65e1927221de591187a2c5987a53", "a4cf5c8155c08a7eff418e5443b98e55", 31), auts := none
    vecs := [("1f0f8578464fd59b64bed2d09436b57a", some 32, "837fd7b744390000557a836fd534e542", "75a150df3c6aed08", "8fe019c7")] },
  { ki := none, k3 := some (.milenage, "5bd7ecd3d3127a41d12539bed4e7cf71", "76089d3c0ff3efdc6e36721d4fceb747", 31), auts := none
    vecs := [("59b75f14251c75031d0bcbac1c2c04c7", some 32, "5be11495527d0000298064f82a439924", "b7f92e426a36fec5", "27202b82")] },
  { ki := none, k3 := some (.milenage, "6cd1c6ceb1e01e14f1b82316a90b7f3d", "a219dc37f1dc7d66738b5843c799f206", 31), auts := none
    vecs := [("f69b78f300a0568bce9f0cb93c4be4c9", some 32, "1c408a858b1e0000e6e96310f83b5689", "88d9de10a22004c5", "ddd7efe6")] },
  { ki := none, k3 := some (.milenage, "b73a90cbcf3afb622dba83c58a8415df", "df0c67868fa25f748b7044c6e7c245b8", 31), auts := none
    vecs := [("b120f1c1a0102a2f507dd543de68281f", some 32, "aefdaa5dddb90000c4741d698b7a7ed3", "a819e577a8d6175b", "67e4ff3f")] },
  { ki := none, k3 := some (.milenage, "5122250214c33e723a5dd523fc145fc0", "981d464c7c52eb6e5036234984ad0bcf", 31), auts := none
    vecs := [("81e92b6c0ee0e12ebceba8d92a99dfa5", some 32, "ada15aeb7b980000a99729b59d5688b2", "9a8d0e883ff0887a", "8a3b8d17")] },
  { ki := none, k3 := some (.milenage, "90dca4eda45b53cf0f12d7c9c3bc6a89", "cb9cccc4b9258e6dca4760379fb82581", 31), auts := none
    vecs := [("9fddc72092c6ad036b6e464789315b78", some 32, "83cfd54db9330000695685b2b9214472", "ed29b2f1c27f9f34", "df58522f")] }]

/-- The recorded values as cryptographic functions.  The AUTS of the test is that of a USIM with the
sequence number 23 (auc_test.c 389-407). -/
def table (cs : List Call) : Crypto where
  gsm _ ki r := (cs.filterMap fun c => match c.ki with
    | some k => if hx k = ki then c.vecs.findSome? (fun v => if hx v.1 = r then some (hx v.2.2.2.1, hx v.2.2.2.2) else none)
      else none
    | none => none).head?
  umts al k opc _ _ q r := (cs.filterMap fun c => match c.k3, c.ki with
    | some (al', k', o', _), none => if al' = al ∧ hx k' = k ∧ hx o' = opc then
        c.vecs.findSome? (fun v => if hx v.1 = r ∧ v.2.1 = some q then
          some (hx v.2.2.1, hx v.2.2.2.1, hx v.2.2.2.2) else none)
      else none
    | _, _ => none).head?
  auts _ _ _ _ ra au := if hx "39fa2f4e3d523d8619a73b4f65c3e14d" = ra ∧ hx "979498b1f72d3e28c59fa2e72f9c" = au
    then some 23 else none

def aud2 (c : Call) : Option Aud2 := c.ki.map fun k => { algo := .comp128v1, ki := hx k }
def aud3 (c : Call) : Option Aud3 := c.k3.map fun k =>
  { algo := k.1, k := hx k.2.1, opc := hx k.2.2.1, isOp := false, sqn := k.2.2.2, bl := 0 }

/-- What the model computes for a recorded call. -/
def replay (cs : List Call) (c : Call) : Option (List Vec) × Option Aud3 :=
  computeVectors (table cs) (fun i => c.vecs[i]?.map (fun v => hx v.1)) c.vecs.length (aud2 c) (aud3 c)
    (c.auts.map (fun a => hx a.1)) (c.auts.map (fun a => hx a.2))

/-- What was recorded; after the call, `aud3g.u.umts.sqn` is that of the last vector. -/
def expected (c : Call) : Option (List Vec) × Option Aud3 :=
  (some (c.vecs.map fun v =>
      { rand := hx v.1, umts := v.2.1.map (fun q => (q, hx v.2.2.1)), kc := hx v.2.2.2.1, sres := hx v.2.2.2.2 }),
   (aud3 c).map fun a => { a with sqn := ((c.vecs.getLast?.bind (fun v => v.2.1)).getD 0) })

#guard recorded.all fun c => replay recorded c = expected c
#guard recordedSets.all fun c => replay recordedSets c = expected c
#guard recorded.length = 10 && recordedSets.length = 19

/-! The refused calls (auc_test.c 559-615) that the model has values for: algorithm NONE or no data at all;
AUTS for 2G only; RAND or AUTS missing. -/

def g0 : Aud2 := { algo := .comp128v1, ki := List.replicate 16 0 }
def u0 : Aud3 := { algo := .milenage, k := List.replicate 16 0, opc := List.replicate 16 0, isOp := false, sqn := 0, bl := 0 }
def gNoalg : Aud2 := { g0 with algo := .none }
def uNoalg : Aud3 := { u0 with algo := .none }

def bad : List (Option Aud2 × Option Aud3 × Option Bytes × Option Bytes) := [
  (none, none, none, none), (none, some uNoalg, none, none), (some gNoalg, none, none, none),
  (some gNoalg, some uNoalg, none, none),
  (some g0, none, some [0], some [0]), (some g0, some uNoalg, some [0], some [0]),
  (none, some u0, none, some [0]), (none, some u0, some [0], none),
  (some g0, some u0, none, some [0]), (some g0, some u0, some [0], none)]

#guard bad.all fun t => (computeVectors (table recorded) (fun _ => some []) 1 t.1 t.2.1 t.2.2.1 t.2.2.2).1 = none

end Verif.Auc.Transcript
