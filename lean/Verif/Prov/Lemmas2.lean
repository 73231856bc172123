import Verif.Prov.Lemmas
/-! # Lemmas on the provisioning commands: keys and values -/
namespace Verif.Prov
open Verif Verif.Db Verif.Auc Verif.Mslookup Verif.Mslookup.Mdns

/-! ## Reading keys -/

theorem getAuthData_nil (imsi : Bytes) (d : Db) :
    getAuthData imsi { db := d, script := [] } = (some (authKeys d imsi), { db := d, script := [] }) := by
  unfold getAuthData authKeys
  rw [bind_run]
  show (match (match d.subs.find? (fun r : SubRow => r.imsi == imsi) with
   | some r => RRes.row (r.id, d.auc2.find? (fun a : Auc2 => a.id == r.id), d.auc3.find? (fun a : Auc3 => a.id == r.id))
   | none => .done) with
  | .done => (pure (Keys.err (-ENOENT)) : DbM Keys)
  | .error => pure (.err (-EIO))
  | .row (id, a2, a3) => pure (loadKeys id a2 a3)) { db := d, script := [] } = _
  cases d.subs.find? (fun r : SubRow => r.imsi == imsi) <;> rfl

theorem algoName_ne (a : Algo) : algoName a ≠ [] := by
  cases a
  case other n => show b "unknown" ≠ []; decide +kernel
  all_goals decide +kernel

theorem withKeys_nil {d : Db} (hG : Good d) {r : SubRow} (hr : r ∈ d.subs) (e : Reply)
    (k : Option Aud2 → Option Aud3 → Reply) :
    exec (withKeys r.imsi e k) d [] = (some (k ((key2 d r.id).bind load2) ((key3 d r.id).bind load3)), d) := by
  unfold withKeys exec
  rw [bind_run, getAuthData_nil, authKeys_ok hG.keys hG.unique hr]
  by_cases h : key2 d r.id = none ∧ key3 d r.id = none
  · rw [if_pos h, h.1, h.2]
    rfl
  · rw [if_neg h]
    rfl

theorem algo2_ne {d : Db} (hG : Good d) {id : Int} {a : Auc2} (h : key2 d id = some a) :
    ∃ ki, hexCol 16 16 a.ki = some ki ∧ load2 a = some { algo := a.algo, ki := ki } := by
  obtain ⟨g, hg, -⟩ := load2_total (hG.keys.1 a (List.mem_of_find?_eq_some h))
  unfold load2 at hg ⊢
  cases hc : hexCol 16 16 a.ki with
  | none => rw [hc] at hg; simp at hg
  | some ki => exact ⟨ki, rfl, rfl⟩

theorem aud3_ne {d : Db} (hG : Good d) {id : Int} {a : Auc3} (h : key3 d id = some a) :
    ∃ k o t, hexCol 16 32 a.k = some k ∧ hexCol 16 32 t = some o
      ∧ (a.op = some t ∧ a.opc = none ∨ a.op = none ∧ a.opc = some t)
      ∧ load3 a = some { algo := a.algo, k := k, opc := o, isOp := a.op.isSome, sqn := a.sqn, bl := a.indBitlen } := by
  have hK := hG.keys.2 a (List.mem_of_find?_eq_some h)
  obtain ⟨u, hu, -⟩ := load3_total hK
  obtain ⟨-, -, -, hO⟩ := hK
  unfold load3 at hu ⊢
  cases hc : hexCol 16 32 a.k with
  | none => rw [hc] at hu; simp at hu
  | some k =>
    rw [hc] at hu
    rcases hO with ⟨t, h1, h2, -⟩ | ⟨t, h1, h2, -⟩
    · rw [h1] at hu ⊢
      cases ho : hexCol 16 32 t with
      | none => simp only [ho] at hu; cases hu
      | some o => exact ⟨k, o, t, rfl, ho, .inl ⟨rfl, h2⟩, by simp only [ho]⟩
    · rw [h1, h2] at hu ⊢
      cases ho : hexCol 16 32 t with
      | none => simp only [Option.getD_some, ho] at hu; cases hu
      | some o => exact ⟨k, o, t, rfl, ho, .inr ⟨rfl, rfl⟩, by simp only [Option.getD_some, ho]⟩

theorem comma_eq (x y : Bytes) : x ++ b "," ++ y = x ++ 44 :: y := by
  have : b "," = [44] := by decide +kernel
  rw [this]; simp

theorem aud2Text_eq {d : Db} (hG : Good d) (id : Int) : aud2Text ((key2 d id).bind load2) = keyText2 (key2 d id) := by
  cases h : key2 d id with
  | none => rfl
  | some a =>
    obtain ⟨ki, h1, h2⟩ := algo2_ne hG h
    show aud2Text (load2 a) = _
    rw [h2]
    show algoName a.algo ++ 44 :: hexdump ki = algoName a.algo ++ b "," ++ lowerHex a.ki
    rw [comma_eq, hexCol_dump h1]

theorem aud3Text_eq {d : Db} (hG : Good d) (id : Int) : aud3Text ((key3 d id).bind load3) = keyText3 (key3 d id) := by
  cases h : key3 d id with
  | none => rfl
  | some a =>
    obtain ⟨k, o, t, h1, h2, h3, h4⟩ := aud3_ne hG h
    have e1 : b "OP," = b "OP" ++ [44] := by decide +kernel
    have e2 : b "OPC," = b "OPC" ++ [44] := by decide +kernel
    have e3 : b "," = [44] := by decide +kernel
    show aud3Text (load3 a) = _
    rw [h4]
    unfold aud3Text keyText3
    dsimp only
    rw [hexCol_dump h1, hexCol_dump h2, e1, e2, e3]
    rcases h3 with ⟨p, q⟩ | ⟨p, q⟩ <;> rw [p, q] <;> simp

theorem printAud2_eq {d : Db} (hG : Good d) (id : Int) : printAud2 ((key2 d id).bind load2) = infoText2 (key2 d id) := by
  cases h : key2 d id with
  | none => rfl
  | some a =>
    obtain ⟨ki, h1, h2⟩ := algo2_ne hG h
    have hK := hG.keys.1 a (List.mem_of_find?_eq_some h)
    have hki : lowerHex a.ki ≠ [] := by
      intro e
      have := hK.2.1
      have e : (lowerHex a.ki).length = 0 := by rw [e]; rfl
      rw [lowerHex, List.length_map] at e
      omega
    have ha : algoName a.algo ≠ [] := algoName_ne _
    have e1 : b "\naud2g.algo\t" = b "\n" ++ b "aud2g.algo" ++ b "\t" := by decide +kernel
    have e2 : b "\naud2g.ki\t" = b "\n" ++ b "aud2g.ki" ++ b "\t" := by decide +kernel
    show printAud2 (load2 a) = _
    rw [h2]
    unfold printAud2 infoText2 infoLine
    dsimp only
    rw [hexCol_dump h1, if_neg hki, if_neg ha, e1, e2]
    simp

theorem decGo_ne {f : Nat} (n : Nat) (h : 0 < f) : decGo f n ≠ [] := (decGo_spec f n).2.2 h

theorem printAud3_eq {d : Db} (hG : Good d) (id : Int) : printAud3 ((key3 d id).bind load3) = infoText3 (key3 d id) := by
  cases h : key3 d id with
  | none => rfl
  | some a =>
    obtain ⟨k, o, t, h1, h2, h3, h4⟩ := aud3_ne hG h
    have hK := hG.keys.2 a (List.mem_of_find?_eq_some h)
    have hne : ∀ {x : Bytes}, Hex32to64 x → lowerHex x ≠ [] := by
      intro x hx e
      have := hx.1
      have e : (lowerHex x).length = 0 := by rw [e]; rfl
      rw [lowerHex, List.length_map] at e
      omega
    have ha : algoName a.algo ≠ [] := algoName_ne _
    have ht : lowerHex t ≠ [] := by
      rcases hK.2.2.2 with ⟨t', q1, q2, q3⟩ | ⟨t', q1, q2, q3⟩ <;> rcases h3 with ⟨p, q⟩ | ⟨p, q⟩
      · rw [q1] at p; cases p; exact hne q3
      · rw [q1] at p; cases p
      · rw [q2] at p; cases p
      · rw [q1] at q; cases q; exact hne q3
    have e1 : b "\naud3g.algo\t" = b "\n" ++ b "aud3g.algo" ++ b "\t" := by decide +kernel
    have e2 : b "\naud3g.k\t" = b "\n" ++ b "aud3g.k" ++ b "\t" := by decide +kernel
    have e3 : b "aud3g.op" = b "aud3g." ++ b "op" := by decide +kernel
    have e4 : b "aud3g.opc" = b "aud3g." ++ b "opc" := by decide +kernel
    have e5 : b "\naud3g." = b "\n" ++ b "aud3g." := by decide +kernel
    have e6 : b "\t" = [9] := by decide +kernel
    have e7 : b "\naud3g.ind_bitlen\t" = b "\n" ++ b "aud3g.ind_bitlen" ++ b "\t" := by decide +kernel
    have e8 : b "\naud3g.sqn\t" = b "\n" ++ b "aud3g.sqn" ++ b "\t" := by decide +kernel
    show printAud3 (load3 a) = _
    rw [h4]
    unfold printAud3 infoText3 infoLine
    dsimp only
    rw [hexCol_dump h1, hexCol_dump h2, if_neg ha, if_neg (hne hK.2.1), if_neg (show dec a.indBitlen ≠ [] from decGo_ne _ (by decide)),
      if_neg (decGo_ne a.sqn (by decide : 0 < 20)), e1, e2, e5, e7, e8]
    rcases h3 with ⟨p, q⟩ | ⟨p, q⟩
    · rw [p, q]
      simp only [Option.isSome_some, if_true]
      rw [if_neg ht, e3, e6]
      simp
    · rw [p, q]
      simp only [Option.isSome_none, Bool.false_eq_true, if_false]
      rw [if_neg ht, e4, e6]
      simp

theorem ofRow_imsi {d : Db} (hG : Good d) {r : SubRow} (hr : r ∈ d.subs) : (HlrSubscr.ofRow r).imsi = r.imsi := by
  have := (hG.idents r hr).1.2.1
  show r.imsi.take 15 = r.imsi
  exact List.take_of_length_le this

theorem ofRow_msisdn {d : Db} (hG : Good d) {r : SubRow} (hr : r ∈ d.subs) : (HlrSubscr.ofRow r).msisdn = r.msisdn.getD [] := by
  show (r.msisdn.getD []).take 15 = _
  apply List.take_of_length_le
  cases h : r.msisdn with
  | none => simp
  | some m => exact ((hG.idents r hr).2.1 m h).2.1

theorem lineS_eq (n : String) (v : Bytes) : lineS (b n) v = infoLine n v := by
  have e1 : b "\n" = [10] := by decide +kernel
  have e2 : b "\t" = [9] := by decide +kernel
  unfold lineS infoLine
  rw [e1, e2]
  cases v <;> simp

theorem lineB_eq (n : String) (v : Bool) : lineB (b n) v = infoLine n (flagText v) := by
  have e1 : b "\n" = [10] := by decide +kernel
  have e2 : b "\t" = [9] := by decide +kernel
  have e3 : b "0" = [48] := by decide +kernel
  have e4 : b "1" = [49] := by decide +kernel
  unfold lineB infoLine flagText
  rw [e1, e2, e3, e4]
  cases v <;> simp

theorem printInfo_eq {d : Db} (hG : Good d) {r : SubRow} (hr : r ∈ d.subs) : printInfo (HlrSubscr.ofRow r) = infoText r := by
  have e1 : b "\nid\t" = b "\n" ++ b "id" ++ b "\t" := by decide +kernel
  have e2 : b "\nperiodic_lu_timer\t0\nperiodic_rau_tau_timer\t0\nlmsi\t00000000"
      = infoLine "periodic_lu_timer" (b "0") ++ infoLine "periodic_rau_tau_timer" (b "0") ++ infoLine "lmsi" (b "00000000") := by
    decide +kernel
  have e3 : infoLine "id" (u64 r.id) = b "\n" ++ b "id" ++ b "\t" ++ u64 r.id := by
    unfold infoLine
    rw [if_neg (show u64 r.id ≠ [] from decGo_ne _ (by decide))]
  unfold printInfo infoText
  rw [ofRow_imsi hG hr, ofRow_msisdn hG hr, e1, e2, e3]
  simp only [lineS_eq, lineB_eq]
  show _ ++ _ ++ _ ++ _ ++ _ ++ _ ++ infoLine "vlr_number" ((r.vlr.getD []).take 31) ++ infoLine "sgsn_number" ((r.sgsn.getD []).take 31) ++ _ ++ _ ++ _ = _
  simp only [List.append_assoc]
  rfl

end Verif.Prov
