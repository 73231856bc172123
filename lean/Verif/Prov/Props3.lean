import Verif.Prov.Props2
import Verif.Prov.Lemmas6
/-! # C54: deletion, reading back, and what goes wrong -/
namespace Verif.Prov.Props
open Verif Verif.Db Verif.Auc Verif.Mslookup Verif.Mslookup.Mdns Verif.Prov

/-- C54: deleting, on a working database: the subscriber and their keys are gone, nothing else
changes, and the answer is the id; there is an error, and no change, if there is none. -/
theorem c54_delete (hist : List (Op × Script)) (sc : Script) (hsc : ∀ f ∈ sc, f = .ok) (imsi : Bytes) :
    let d := runHist {} hist
    (∀ r ∈ d.subs, r.imsi = imsi → exec (delete imsi) d sc = (some (.reply (u64 r.id)), without d r.id))
    ∧ (Digits 6 15 imsi ∧ ¬ Known d imsi → exec (delete imsi) d sc = (some (err "Subscriber doesn't exist."), d))
    ∧ (¬ Digits 6 15 imsi → exec (delete imsi) d sc = (some (err "Invalid IMSI value."), d)) := by
  intro d
  have hG : Good d := reachable_good hist
  rw [(delete_uniform imsi).exec _ hsc]
  refine ⟨fun r hr hi => ?_, fun ⟨hv, hk⟩ => ?_, fun hv => ?_⟩
  · have hvv : imsiValid imsi = true := digits_valid.mpr (hi ▸ (hG.idents r hr).1)
    have hf : d.subs.find? (fun r : SubRow => r.imsi == imsi) = some r := by
      cases hf : d.subs.find? (fun r : SubRow => r.imsi == imsi) with
      | none => exact absurd (by simpa using hi) (by simpa using List.find?_eq_none.mp hf r hr)
      | some r' =>
        have e1 := List.find?_some hf
        have e1 : r'.imsi = imsi := by simpa using e1
        rw [eq_of_nodup_map hG.unique.imsis (List.mem_of_find?_eq_some hf) hr (e1.trans hi.symm)]
    have hd := subscrDelete_known hG hr
    unfold delete
    rw [hvv]
    show exec (getByImsi imsi >>= fun a => _ : DbM Reply) d [] = _
    unfold exec getByImsi
    rw [bind_run, dbSel_nil, hf]
    dsimp only
    rw [bind_run]
    obtain ⟨a, d', hu, -⟩ := subscrDelete_uniform r.id d
    unfold exec at hd
    rw [hu] at hd ⊢
    dsimp only at hd ⊢
    cases hd
    rfl
  · have hvv : imsiValid imsi = true := digits_valid.mpr hv
    have hf : d.subs.find? (fun r : SubRow => r.imsi == imsi) = none := by
      rw [List.find?_eq_none]
      intro r hr e
      exact hk ⟨r, hr, by simpa using e⟩
    unfold delete
    rw [hvv]
    show exec (getByImsi imsi >>= fun a => _ : DbM Reply) d [] = _
    unfold exec getByImsi
    rw [bind_run, dbSel_nil, hf]
    rfl
  · have hvv : imsiValid imsi = false := by
      cases h : imsiValid imsi with
      | false => rfl
      | true => exact absurd (digits_valid.mp h) hv
    unfold delete
    rw [hvv]
    rfl

/-- C54: a deletion answered with an id removed that subscriber's record, whatever failed; one
that failed, on whatever account, is not answered with an id. -/
theorem c54_delete_ok (hist : List (Op × Script)) (sc : Script) (imsi v : Bytes)
    (h : (exec (delete imsi) (runHist {} hist) sc).1 = some (.reply v)) :
    ∃ r ∈ (runHist {} hist).subs, r.imsi = imsi ∧ v = u64 r.id
      ∧ Removed (runHist {} hist) r.id (exec (delete imsi) (runHist {} hist) sc).2 := by
  generalize runHist {} hist = d at h ⊢
  by_cases hv : imsiValid imsi = true
  · have hd : delete imsi = (dbSel (fun r : SubRow => r.imsi == imsi) >>= fun a => match a with
        | (_, none) => pure (err "Subscriber doesn't exist.")
        | (_, some r) => do
          let rc ← subscrDelete r.id
          pure (if rc ≠ 0 then err "Cannot delete subscriber." else .reply (u64 r.id)) : DbM Reply) := by
      unfold delete
      rw [hv]
      rfl
    rw [hd] at h ⊢
    rcases exec_sel (fun r : SubRow => r.imsi == imsi) (fun a => match a with
        | (_, none) => pure (err "Subscriber doesn't exist.")
        | (_, some r) => do
          let rc ← subscrDelete r.id
          pure (if rc ≠ 0 then err "Cannot delete subscriber." else .reply (u64 r.id)) : _ → DbM Reply) d sc
      with e | e | ⟨-, e⟩ | ⟨r, hf, e⟩
    · rw [e] at h; cases h
    · rw [e] at h; cases h
    · rw [e] at h; cases h
    · rw [e] at h ⊢
      dsimp only at h ⊢
      rw [exec_then] at h ⊢
      have hi : r.imsi = imsi := by have := List.find?_some hf; simpa using this
      refine ⟨r, List.mem_of_find?_eq_some hf, hi, ?_⟩
      rcases delete_run r.id d sc.tail with e | ⟨-, e | e⟩
      · cases hd : (exec (subscrDelete r.id) d sc.tail).1 with
        | none => rw [hd] at h; cases h
        | some rc =>
          rw [hd] at h
          by_cases h0 : rc = 0
          · subst h0
            cases h
            exact ⟨rfl, e⟩
          · have h : some (if rc ≠ 0 then err "Cannot delete subscriber." else .reply (u64 r.id)) = some (Reply.reply v) := h
            rw [if_pos h0] at h
            cases h
      · rw [e] at h; cases h
      · rw [e] at h; cases h
  · have hv : imsiValid imsi = false := by simpa using hv
    unfold delete at h
    rw [hv] at h
    cases h

/-- C53, C54: the id in an answer is the number of the record. -/
theorem c53_id_text (hist : List (Op × Script)) (r : SubRow) (hr : r ∈ (runHist {} hist).subs) (hid : r.id < 2 ^ 63) :
    ∃ n, Numeral (u64 r.id) n ∧ r.id = (n : Int) := by
  have h0 := (reachable_good hist).pos r hr
  refine ⟨r.id.toNat, ?_, by omega⟩
  have e : (r.id % 2 ^ 64).toNat = r.id.toNat := by omega
  unfold u64
  rw [e]
  refine numeral_iff.mp ?_
  unfold unsignedVal
  rw [if_neg (by simpa using (decGo_spec 20 r.id.toNat).2.2 (by decide))]
  exact digitsVal_dec (by omega)

example : (exec (delete (b "901990000000001")) (runHist {} exHist) [.ok, .ok, .ioerr]).1 = some (.reply (b "1"))
    ∧ (exec (delete (b "901990000000001")) (runHist {} exHist) [.ok, .ioerr]).1 = some (err "Cannot delete subscriber.") := by
  decide +kernel

/-! ### Reading back -/

theorem runHist_append (d : Db) (h h' : List (Op × Script)) : runHist d (h ++ h') = runHist (runHist d h) h' := by
  induction h generalizing d with
  | nil => rfl
  | cons x h ih => exact ih _

theorem lower_xdigit {c : UInt8} (h : isXDigit c = true) : isXDigit (lower c) = true := by
  have : ∀ n : Fin 256, isXDigit (UInt8.ofFin n) = true → isXDigit (lower (UInt8.ofFin n)) = true := by decide +kernel
  simpa using this c.toFin (by simpa using h)

theorem dec_numeral {n : Nat} (h : n < 10 ^ 10) : Numeral (dec n) n := by
  obtain ⟨-, h2, h3⟩ := decGo_spec 10 n
  exact (numeral_iff).mp (by
    unfold unsignedVal dec
    rw [if_neg (by simpa using h3 (by decide))]
    exact digitsVal_dec h)

theorem withKey2_row {d : Db} {id : Int} {k : Option Auc2} : (withKey2 d id k).subs = d.subs := rfl
theorem withKey3_row {d : Db} {id : Int} {k : Option Auc3} : (withKey3 d id k).subs = d.subs := rfl

/-- C54: 2G keys written are the keys read afterwards. -/
theorem c54_readback2 (hist : List (Op × Script)) (sc sc' : Script) (hsc : ∀ f ∈ sc, f = .ok) (hsc' : ∀ f ∈ sc', f = .ok)
    (sel sel' v ki : Bytes) (al : Algo) (r : SubRow) (hr : r ∈ (runHist {} hist).subs) (h : Names sel r)
    (h' : Names sel' r) (hid : r.id < 2 ^ 63) (ha : Asks2 v al ki) :
    (exec (get sel' .aud2g) (exec (set sel .aud2g v) (runHist {} hist) sc).2 sc').1
      = some (.reply (algoName al ++ b "," ++ lowerHex ki)) := by
  have e1 := c54_aud2g hist sc hsc sel v ki al r hr h hid ha
  have hn : al ≠ .none := by
    obtain ⟨t, -, -, h1, -⟩ := ha
    rintro rfl
    simp at h1
  have hk : aud2Valid al ki = true := by
    rw [aud2Valid_iff]
    have := asks2_key ha 0
    revert hn
    cases al <;> first | exact fun h => absurd rfl h | exact fun _ => this
  have e2 : runHist {} (hist ++ [(.aud r.id (.gsm al ki), [])]) = (exec (set sel .aud2g v) (runHist {} hist) sc).2 := by
    rw [runHist_append, e1]
    show (exec (updateAud r.id (.gsm al ki)) (runHist {} hist) []).2 = _
    rcases exec_aud2 (runHist {} hist) (reachable_good hist).unique [] r.id al ki hk hn with
      ⟨e, -⟩ | ⟨e, -⟩ | ⟨-, e, -⟩ | ⟨-, e, -⟩ | ⟨-, -, e⟩
    · cases e
    · cases e
    · cases e
    · cases e
    · rw [e]; rfl
  rw [← e2]
  rw [c53_get _ sc' hsc' sel' .aud2g r (by rw [e2, e1]; exact hr) h' hid]
  dsimp only
  rw [e2, e1]
  show some (Reply.reply (keyText2 (key2 (withKey2 (runHist {} hist) r.id (some { id := r.id, algo := al, ki := ki })) r.id))) = _
  have := key2_new (runHist {} hist) { id := r.id, algo := al, ki := ki }
  rw [show key2 (withKey2 (runHist {} hist) r.id (some { id := r.id, algo := al, ki := ki })) r.id
    = some { id := r.id, algo := al, ki := ki } from this]
  rfl

/-- C54: 3G keys written are the keys read afterwards. -/
theorem c54_readback3 (hist : List (Op × Script)) (sc sc' : Script) (hsc : ∀ f ∈ sc, f = .ok) (hsc' : ∀ f ∈ sc', f = .ok)
    (sel sel' v k o : Bytes) (isOp : Bool) (bl : Nat) (r : SubRow) (hr : r ∈ (runHist {} hist).subs) (h : Names sel r)
    (h' : Names sel' r) (hid : r.id < 2 ^ 63) (ha : Asks3 v k o isOp bl) :
    (exec (get sel' .aud3g) (exec (set sel .aud3g v) (runHist {} hist) sc).2 sc').1
      = some (.reply (b "MILENAGE," ++ lowerHex k ++ (if isOp then b ",OP," else b ",OPC,") ++ lowerHex o ++ b ","
          ++ Mdns.dec bl)) := by
  have e1 := c54_aud3g hist sc hsc sel v k o isOp bl r hr h hid ha
  have hk : aud3Valid .milenage k o bl = true := by
    rw [aud3Valid_iff (p := isOp)]
    obtain ⟨⟨k1, k2⟩, ⟨o1, o2⟩, hb, -⟩ := ha
    exact ⟨by simp, ⟨by omega, by omega, by omega, k2⟩, ⟨by omega, by omega, by omega, o2⟩, hb⟩
  have e2 : runHist {} (hist ++ [(.aud r.id (.umts .milenage k o isOp bl), [])])
      = (exec (set sel .aud3g v) (runHist {} hist) sc).2 := by
    rw [runHist_append, e1]
    show (exec (updateAud r.id (.umts .milenage k o isOp bl)) (runHist {} hist) []).2 = _
    rcases exec_aud3 (runHist {} hist) (reachable_good hist).unique [] r.id .milenage k o isOp bl hk (by simp) with
      ⟨e, -⟩ | ⟨e, -⟩ | ⟨-, e, -⟩ | ⟨-, e, -⟩ | ⟨-, -, e⟩
    · cases e
    · cases e
    · cases e
    · cases e
    · rw [e]; rfl
  rw [← e2]
  rw [c53_get _ sc' hsc' sel' .aud3g r (by rw [e2, e1]; exact hr) h' hid]
  dsimp only
  rw [e2, e1]
  show some (Reply.reply (keyText3 (key3 (withKey3 (runHist {} hist) r.id (some (newKey3 r.id k o isOp bl))) r.id))) = _
  have := key3_new (runHist {} hist) (newKey3 r.id k o isOp bl)
  rw [show key3 (withKey3 (runHist {} hist) r.id (some (newKey3 r.id k o isOp bl))) r.id
    = some (newKey3 r.id k o isOp bl) from this]
  have l1 : b "MILENAGE," = algoName .milenage ++ b "," := by decide +kernel
  have l2 : b ",OP," = b "," ++ b "OP," := by decide +kernel
  have l3 : b ",OPC," = b "," ++ b "OPC," := by decide +kernel
  unfold newKey3 keyText3
  cases isOp
  · simp [l1, l3]
  · simp [l1, l2]

/-- C54: the text of a GET of 2G keys can be written again, and gives the same keys. -/
theorem c54_restore2 (a : Auc2) (h : Key2Ok a) : Asks2 (keyText2 (some a)) a.algo (lowerHex a.ki) := by
  obtain ⟨h1, h2, h3⟩ := h
  refine ⟨algoName a.algo, rfl, rfl, h1, by simpa [lowerHex] using h2, ?_⟩
  intro c hc
  obtain ⟨x, hx, rfl⟩ := List.mem_map.mp hc
  exact lower_xdigit (h3 x hx)

/-- C54: the text of a GET of Milenage keys of the usual length can be written again, and gives
the same keys with the same IND length. -/
theorem c54_restore3_partial (a : Auc3) (h : Key3Ok a) (hm : a.algo = .milenage) (hk : a.k.length = 32)
    (ho : ∀ t, a.op = some t ∨ a.opc = some t → t.length = 32) :
    ∃ o isOp, (if isOp then a.op else a.opc) = some o ∧ Asks3 (keyText3 (some a)) (lowerHex a.k) (lowerHex o) isOp a.indBitlen := by
  obtain ⟨-, h1, h2, h3⟩ := h
  have lo : ∀ t : Bytes, Hex32to64 t → t.length = 32 → Hex32 (lowerHex t) := by
    intro t ht hl
    refine ⟨by simpa [lowerHex] using hl, fun c hc => ?_⟩
    obtain ⟨x, hx, rfl⟩ := List.mem_map.mp hc
    exact lower_xdigit (ht.2.2.2 x hx)
  have hd : Numeral (dec a.indBitlen) a.indBitlen := dec_numeral (by omega)
  rcases h3 with ⟨t, e1, e2, e3⟩ | ⟨t, e1, e2, e3⟩
  · refine ⟨t, true, e1, lo _ h1 hk, lo _ e3 (ho t (.inl e1)), h2, algoName .milenage, b "OP", rfl, by decide +kernel,
      .inr ⟨dec a.indBitlen, hd, ?_⟩⟩
    have l2 : b "OP," = b "OP" ++ b "," := by decide +kernel
    unfold keyText3
    dsimp only
    rw [hm, e1]
    simp [l2]
  · refine ⟨t, false, e1, lo _ h1 hk, lo _ e3 (ho t (.inr e1)), h2, algoName .milenage, b "OPC", rfl, by decide +kernel,
      .inr ⟨dec a.indBitlen, hd, ?_⟩⟩
    have l2 : b "OPC," = b "OPC" ++ b "," := by decide +kernel
    unfold keyText3
    dsimp only
    rw [hm, e1, e2]
    simp [l2]

/-! ### What goes wrong -/

/-- XOR-3G keys can be stored (VTY) and read, but not written: neither the text read nor any
other. -/
theorem c54_xor3g_violated :
    (∀ r v op, ∀ k o p bl, ¬ (Stands r .aud3g v op ∧ op = .aud r.id (.umts .xor3g k o p bl)))
    ∧ let d := runHist {} [(.create (b "901990000000001") true true, []),
        (.aud 1 (.umts .xor3g (b "c01ffedc1cadaeac1d1f1edacac1ab0a") (b "fb2a3d1b360f599abab99db8669f8308") false 5), [])]
      let t := b "XOR-3G,c01ffedc1cadaeac1d1f1edacac1ab0a,OPC,fb2a3d1b360f599abab99db8669f8308,5"
      (exec (get (b "by-id-1") .aud3g) d []).1 = some (.reply t)
      ∧ exec (set (b "by-id-1") .aud3g t) d [] = (some (err "Invalid OP/OPC."), d) := by
  refine ⟨?_, by decide +kernel, by decide +kernel⟩
  rintro r v op k o p bl ⟨h, rfl⟩
  cases h with
  | aud3 _ _ _ hx _ _ => exact hx rfl

/-- A value that is no number is taken as IND length 0, and a bad one as well. -/
theorem c54_bitlen_violated :
    let d := runHist {} exHist
    let set1 := exec (set (b "by-id-1") .aud3g (b "milenage,c01ffedc1cadaeac1d1f1edacac1ab0a,opc,fb2a3d1b360f599abab99db8669f8308,abc")) d []
    let set2 := exec (set (b "by-id-1") .aud3g (b "milenage,c01ffedc1cadaeac1d1f1edacac1ab0a,opc,fb2a3d1b360f599abab99db8669f8308,4294967301")) d []
    set1.1 = some okReply ∧ (key3 set1.2 1).map (·.indBitlen) = some 0
    ∧ set2.1 = some okReply ∧ (key3 set2.2 1).map (·.indBitlen) = some 5 := by decide +kernel

/-- Removing keys that are not there is answered with an error. -/
theorem c54_none_violated :
    exec (set (b "by-id-2") .aud2g (b "none")) (runHist {} exHist) [] = (some (err "Update aud2g failed."), runHist {} exHist)
    ∧ exec (set (b "by-id-2") .aud3g (b "none")) (runHist {} exHist) [] = (some (err "Update aud3g failed."), runHist {} exHist) := by
  decide +kernel

/-- Text after `none` is ignored: the keys are removed. -/
theorem c54_trailing_violated :
    let res := exec (set (b "by-id-1") .aud2g (b "none,COMP128v1,beefedcafefaceacedaddeddecadefee")) (runHist {} exHist) []
    res.1 = some okReply ∧ key2 res.2 1 = none := by decide +kernel

/-- A creation answered with an error may have created the subscriber: the id is read in a second
statement. -/
theorem c54_create_violated :
    let res := exec (create (b "901990000000003")) (runHist {} exHist) [.ok, .ioerr]
    res.1 = some (err "Failed retrieving ID of newly created subscriber.")
    ∧ (abs res.2 (b "901990000000003")).isSome = true := by decide +kernel

/-- A key update answered with an error may have removed the keys (see C08). -/
theorem c54_keys_lost_violated :
    let res := exec (set (b "by-id-1") .aud2g (b "xor-2g,beefedcafefaceacedaddeddecadefee")) (runHist {} exHist) [.ok, .ok, .ioerr]
    res.1 = some (err "Update aud2g failed.") ∧ key2 res.2 1 = none ∧ key2 (runHist {} exHist) 1 ≠ none := by decide +kernel

example : ∃ r ∈ (runHist {} exHist).subs, Names (b "by-msisdn-1") r
    ∧ Asks2 (b "xor-2g,FFFFFFFFFFFFFFFFFFFFFFFFFFFFFFFF") .xor2g (b "FFFFFFFFFFFFFFFFFFFFFFFFFFFFFFFF")
    ∧ Asks3 (b "Milenage,00000000000000000000000000000000,op,FFFFFFFFFFFFFFFFFFFFFFFFFFFFFFFF,07")
        (b "00000000000000000000000000000000") (b "FFFFFFFFFFFFFFFFFFFFFFFFFFFFFFFF") true 7
    ∧ (exec (set (b "by-msisdn-1") .aud2g (b "xor-2g,FFFFFFFFFFFFFFFFFFFFFFFFFFFFFFFF")) (runHist {} exHist) []).1 = some okReply := by
  refine ⟨(runHist {} exHist).subs.head (by decide +kernel), by decide +kernel,
    .inr (.inl ⟨b "1", by decide +kernel, by decide +kernel⟩), ⟨b "xor-2g", by decide +kernel, ?_, by simp, ?_⟩,
    ⟨?_, ?_, by decide, b "Milenage", b "op", ?_, by decide +kernel, .inr ⟨b "07", ⟨by decide +kernel, by decide +kernel, by decide +kernel⟩, by decide +kernel⟩⟩,
    by decide +kernel⟩
  · unfold Called; decide +kernel
  · unfold Hex32; decide +kernel
  · unfold Hex32; decide +kernel
  · unfold Hex32; decide +kernel
  · unfold Called; decide +kernel

end Verif.Prov.Props
