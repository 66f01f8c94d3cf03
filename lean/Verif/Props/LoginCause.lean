import Verif.Lemmas.LoginCause
/-!
# C72: every outcome of a login has its cause
-/

namespace Cifs

open Spec

variable {σ : Type}

/-! ## The causes exclude each other -/

theorem round_parse {V : Server σ} {v v' : σ} {b p f b' : Bytes} (h : Round V v b p f v' b') : ∃ i, Info.parse f = .ok (i, f.drop 32) := by
  obtain ⟨_, mid, _, b1, _, _, hg, _⟩ := h
  obtain ⟨i, r, hp⟩ := (C13_accepted_iff f).mpr hg
  exact ⟨i, by rw [hp, (C17_read f i r hp).1]⟩

theorem mid_fits {p : Bytes} {mid : Nat} (h : midOf p = some mid) : ∃ m : UInt16, m.toNat = mid := by
  have : mid < 65536 := u16At_small h
  exact ⟨UInt16.ofNat mid, by rw [UInt16.toNat_ofNat']; exact Nat.mod_eq_of_lt this⟩

theorem noReply_det {t : Tail} {p b : Bytes} {mid : Nat} (hm : midOf p = some mid) {x y : Option Error} (h : NoReply t mid b x) (h' : NoReply t mid b y) :
    x = y := by
  obtain ⟨m, rfl⟩ := mid_fits hm
  have e : (stopped x : Out Error (Info × Bytes)) = stopped y := by rw [← noReply_flat h, noReply_flat h']
  cases x <;> cases y <;> cases e <;> rfl

theorem noReply_round {V : Server σ} {v v' : σ} {b p f b' : Bytes} {mid : Nat} (hm : midOf p = some mid) {x : Option Error}
    (h : NoReply (V.tail (V.react v p).1) mid (b ++ (V.react v p).2.flatten) x) : ¬ Round V v b p f v' b' := by
  rintro ⟨_, mid', hm', ha⟩
  rw [hm] at hm'; cases hm'
  obtain ⟨m, rfl⟩ := mid_fits hm
  obtain ⟨i, _, hf⟩ := flatNext_awaits (V.tail (V.react v p).1) m ha
  have := noReply_flat h
  rw [hf] at this
  cases x <;> cases this

/-- Ways for a reply to end a login that exclude each other. -/
structure Separates (Ending : Bytes → Out Error Unit → Prop) : Prop where
  det : ∀ {f o o'}, (∃ i, Info.parse f = .ok (i, f.drop 32)) → Ending f o → Ending f o' → o = o'

theorem halts_det {V : Server σ} {ws : List WriteEv} {v : σ} {b p p' : Bytes} {Ending : Bytes → Out Error Unit → Prop} (hE : Separates Ending) {l : List Bytes}
    {o o' : Out Error Unit} (h : Halts V ws v b p Ending l o) (h' : Halts V ws v b p' Ending l o') : o = o' := by
  cases h with
  | unsent h => cases h' with | unsent h' => rw [writeTrouble_det h h']
  | silent hm h =>
    cases h' with
    | silent hm' h' =>
      rw [hm] at hm'; cases hm'
      rw [noReply_det hm h h']
    | ends hr => exact absurd hr (noReply_round hm h)
  | ends hr h =>
    cases h' with
    | silent hm h' => exact absurd hr (noReply_round hm h')
    | ends hr' h' =>
      obtain ⟨rfl, _, _⟩ := round_det hr hr'
      exact hE.det (round_parse hr) h h'

/-- A request that ends a login is not one with a reply of another kind. -/
theorem halts_round {V : Server σ} {ws : List WriteEv} {v v' : σ} {b p q f b' : Bytes} {Ending : Bytes → Out Error Unit → Prop} {l l' : List Bytes}
    {o : Out Error Unit} (h : Halts V ws v b p Ending l o) (hr : Round V v b q f v' b') (hl : l = q :: l') (hn : ∀ o, ¬ Ending f o) : False := by
  cases h with
  | unsent h => cases hl
  | silent hm h => cases hl; exact noReply_round hm h hr
  | ends hr' h =>
    cases hl
    obtain ⟨rfl, _, _⟩ := round_det hr hr'
    exact hn _ h

theorem separates_negotiate : Separates NegotiateFails :=
  ⟨fun ⟨_, hp⟩ h h' => by rw [(negotiate_sound hp h).1, (negotiate_sound hp h').1]⟩

theorem separates_setup : Separates SetupFails :=
  ⟨fun ⟨_, hp⟩ h h' => by rw [(setup_sound hp h).1, (setup_sound hp h').1]⟩

theorem negotiated_not {f ps key : Bytes} (hp : ∃ i, Info.parse f = .ok (i, f.drop 32)) (h : Negotiated f ps key) (o : Out Error Unit) : ¬ NegotiateFails f o := by
  intro h'
  obtain ⟨i, hp⟩ := hp
  obtain ⟨v, hv⟩ := negotiated_ok hp h
  have := negotiate_sound hp h'
  rw [hv] at this
  exact this.2 this.1

theorem set_up_not {f m : Bytes} (hp : ∃ i, Info.parse f = .ok (i, f.drop 32)) (h : SetUp f m) (o : Out Error Unit) : ¬ SetupFails f o := by
  intro h'
  obtain ⟨i, hp⟩ := hp
  obtain ⟨v, hv, _⟩ := set_up_ok hp h
  have := setup_sound hp h'
  rw [hv] at this
  exact this.2 this.1

theorem set_up_det {f m m' : Bytes} (hp : ∃ i, Info.parse f = .ok (i, f.drop 32)) (h : SetUp f m) (h' : SetUp f m') : m = m' := by
  obtain ⟨i, hp⟩ := hp
  obtain ⟨v, hv, rfl⟩ := set_up_ok hp h
  obtain ⟨v', hv', rfl⟩ := set_up_ok hp h'
  rw [hv] at hv'; cases hv'; rfl

theorem classicEnds_det {V : Server σ} {a : Auth} {u : Bool} {ws : List WriteEv} {v : σ} {b key : Bytes} {l : List Bytes} {o o' : Out Error Unit}
    (h : ClassicEnds V a u ws v b key l o) (h' : ClassicEnds V a u ws v b key l o') : o = o' := by
  cases h with
  | key hk =>
    cases h' with
    | key => rfl
    | long h => exact absurd h hk
    | halts h => exact absurd h hk
  | long hk hl =>
    cases h' with
    | key h => exact absurd hk h
    | long => rfl
    | halts _ hl' => omega
  | halts hk hl h =>
    cases h' with
    | key hk' => exact absurd hk hk'
    | long _ hl' => omega
    | halts _ _ h' => exact halts_det separates_setup h h'
    | done _ _ hr hf => exact (halts_round h hr rfl (set_up_not (round_parse hr) hf)).elim
  | done hk hl hr hf =>
    cases h' with
    | halts _ _ h' => exact (halts_round h' hr rfl (set_up_not (round_parse hr) hf)).elim
    | done => rfl

theorem bad_not {m challenge info : Bytes} {target : Str} {flags : Nat} (hb : BadChallenge m) : ¬ IsNtlmChallenge m target flags challenge info := by
  intro h
  obtain ⟨f, _, hd⟩ := C50_decode h
  rw [(C38_challenge m).mpr hb] at hd; cases hd

theorem responseEnds_det {E : Env σ} {a : Auth} {u : Bool} {ws : List WriteEv} {v : σ} {b m : Bytes} {l : List Bytes} {o o' : Out Error Unit}
    (h : ResponseEnds E a u ws v b m l o) (h' : ResponseEnds E a u ws v b m l o') : o = o' := by
  cases h with
  | bad hb =>
    cases h' with
    | bad => rfl
    | foreign h => exact absurd hb h
    | clock h => exact absurd h (bad_not hb)
    | names h => exact absurd h (bad_not hb)
    | long h => exact absurd h (bad_not hb)
    | halts h => exact absurd h (bad_not hb)
  | foreign hb hn =>
    cases h' with
    | bad h => exact absurd h hb
    | foreign => rfl
    | clock h => exact absurd ⟨_, _, _, _, h⟩ hn
    | names h => exact absurd ⟨_, _, _, _, h⟩ hn
    | long h => exact absurd ⟨_, _, _, _, h⟩ hn
    | halts h => exact absurd ⟨_, _, _, _, h⟩ hn
  | clock h hc =>
    cases h' with
    | bad hb => exact absurd h (bad_not hb)
    | foreign _ hn => exact absurd ⟨_, _, _, _, h⟩ hn
    | clock => rfl
    | names _ hc' => exact absurd hc hc'
    | long _ hc' => exact absurd hc hc'
    | halts _ hc' => exact absurd hc hc'
  | names h hc hd hu hw hl =>
    cases h' with
    | bad hb => exact absurd h (bad_not hb)
    | foreign _ hn => exact absurd ⟨_, _, _, _, h⟩ hn
    | clock _ hc' => exact absurd hc' hc
    | names => rfl
    | long h' _ hd' hu' hw' hl' =>
      obtain ⟨_, rfl, _, rfl⟩ := C50_unique h h'
      cases ntlmText_det hd hd'; cases ntlmText_det hu hu'; cases ntlmText_det hw hw'
      exact absurd hl' hl
    | halts h' _ hd' hu' hw' hl' =>
      obtain ⟨_, rfl, _, rfl⟩ := C50_unique h h'
      cases ntlmText_det hd hd'; cases ntlmText_det hu hu'; cases ntlmText_det hw hw'
      exact absurd hl' hl
  | long h hc hd hu hw hl ht =>
    cases h' with
    | bad hb => exact absurd h (bad_not hb)
    | foreign _ hn => exact absurd ⟨_, _, _, _, h⟩ hn
    | clock _ hc' => exact absurd hc' hc
    | names h' _ hd' hu' hw' hl' =>
      obtain ⟨_, rfl, _, rfl⟩ := C50_unique h h'
      cases ntlmText_det hd hd'; cases ntlmText_det hu hu'; cases ntlmText_det hw hw'
      exact absurd hl hl'
    | long h' _ hd' hu' hw' hl' ht' =>
      obtain ⟨_, rfl, _, rfl⟩ := C50_unique h h'
      cases ntlmText_det hd hd'; cases ntlmText_det hu hu'; cases ntlmText_det hw hw'
      rw [longSetup_det ht ht']
    | halts h' _ hd' hu' hw' hl' ht' =>
      obtain ⟨_, rfl, _, rfl⟩ := C50_unique h h'
      cases ntlmText_det hd hd'; cases ntlmText_det hu hu'; cases ntlmText_det hw hw'
      exact absurd ht (ht' _)
  | halts h hc hd hu hw hl ht hh =>
    cases h' with
    | bad hb => exact absurd h (bad_not hb)
    | foreign _ hn => exact absurd ⟨_, _, _, _, h⟩ hn
    | clock _ hc' => exact absurd hc' hc
    | names h' _ hd' hu' hw' hl' =>
      obtain ⟨_, rfl, _, rfl⟩ := C50_unique h h'
      cases ntlmText_det hd hd'; cases ntlmText_det hu hu'; cases ntlmText_det hw hw'
      exact absurd hl hl'
    | long h' _ hd' hu' hw' hl' ht' =>
      obtain ⟨_, rfl, _, rfl⟩ := C50_unique h h'
      cases ntlmText_det hd hd'; cases ntlmText_det hu hu'; cases ntlmText_det hw hw'
      exact absurd ht' (ht _)
    | halts _ _ _ _ _ _ _ hh' => exact halts_det separates_setup hh hh'
    | done _ _ _ _ _ _ _ hr hf => exact (halts_round hh hr rfl (set_up_not (round_parse hr) hf)).elim
  | done h hc hd hu hw hl ht hr hf =>
    cases h' with
    | halts _ _ _ _ _ _ _ hh' => exact (halts_round hh' hr rfl (set_up_not (round_parse hr) hf)).elim
    | done => rfl

theorem extendedEnds_det {E : Env σ} {a : Auth} {u : Bool} {ws : List WriteEv} {v : σ} {b : Bytes} {l : List Bytes} {o o' : Out Error Unit}
    (h : ExtendedEnds E a u ws v b l o) (h' : ExtendedEnds E a u ws v b l o') : o = o' := by
  cases h with
  | names h =>
    cases h' with
    | names => rfl
    | long h' => exact absurd h' h
    | halts h' => exact absurd h' h
  | long h ht =>
    cases h' with
    | names h' => exact absurd h h'
    | long _ ht' => rw [longSetup_det ht ht']
    | halts _ ht' => exact absurd ht (ht' _)
  | halts h ht hh =>
    cases h' with
    | names h' => exact absurd h h'
    | long _ ht' => exact absurd ht' (ht _)
    | halts _ _ hh' => exact halts_det separates_setup hh hh'
    | next _ _ hr hf => exact (halts_round hh hr rfl (set_up_not (round_parse hr) hf)).elim
  | next h ht hr hf hs =>
    cases h' with
    | halts _ _ hh' => exact (halts_round hh' hr rfl (set_up_not (round_parse hr) hf)).elim
    | next _ _ hr' hf' hs' =>
      obtain ⟨rfl, rfl, rfl⟩ := round_det hr hr'
      cases set_up_det (round_parse hr) hf hf'
      exact responseEnds_det hs hs'

theorem bool_det {u u' : Bool} {P : Prop} (h : u = true ↔ P) (h' : u' = true ↔ P) : u = u' := Bool.eq_iff_iff.mpr (h.trans h'.symm)

/-- What is sent decides about the outcome. -/
theorem loginEnds_det {E : Env σ} {a : Auth} {ws : List WriteEv} {v : σ} {b : Bytes} {l : List Bytes} {o o' : Out Error Unit}
    (h : LoginEnds E a ws v b l o) (h' : LoginEnds E a ws v b l o') : o = o' := by
  cases h with
  | halts h =>
    cases h' with
    | halts h' => exact halts_det separates_negotiate h h'
    | classic hr hf => exact (halts_round h hr rfl (negotiated_not (round_parse hr) hf)).elim
    | extended hr hf => exact (halts_round h hr rfl (negotiated_not (round_parse hr) hf)).elim
  | classic hr hf hx hu hs =>
    cases h' with
    | halts h' => exact (halts_round h' hr rfl (negotiated_not (round_parse hr) hf)).elim
    | classic hr' hf' hx' hu' hs' =>
      obtain ⟨rfl, rfl, rfl⟩ := round_det hr hr'
      obtain ⟨rfl, rfl⟩ := negotiated_det hf hf'
      cases bool_det hu hu'
      exact classicEnds_det hs hs'
    | extended hr' hf' hx' =>
      obtain ⟨rfl, rfl, rfl⟩ := round_det hr hr'
      obtain ⟨rfl, rfl⟩ := negotiated_det hf hf'
      exact absurd hx' hx
  | extended hr hf hx hu hs =>
    cases h' with
    | halts h' => exact (halts_round h' hr rfl (negotiated_not (round_parse hr) hf)).elim
    | classic hr' hf' hx' =>
      obtain ⟨rfl, rfl, rfl⟩ := round_det hr hr'
      obtain ⟨rfl, rfl⟩ := negotiated_det hf hf'
      exact absurd hx hx'
    | extended hr' hf' hx' hu' hs' =>
      obtain ⟨rfl, rfl, rfl⟩ := round_det hr hr'
      obtain ⟨rfl, rfl⟩ := negotiated_det hf hf'
      cases bool_det hu hu'
      exact extendedEnds_det hs hs'

/-! ## There is always a cause -/

/-- Every reply of this kind has a cause: it is good, or it ends the login. -/
def Sorts {α : Type} (R : Reply α) (Good : Bytes → α → Prop) (Ending : Bytes → Out Error Unit → Prop) : Prop :=
  ∀ f i, Info.parse f = .ok (i, f.drop 32) → (∃ v, accept R i (f.drop 32) = .ok v ∧ Good f v) ∨
    ∃ o, Ending f o ∧ o = (accept R i (f.drop 32)).void ∧ o ≠ .ok ()

theorem sorts_setup : Sorts SessionSetupReply.reply (fun f v => SetUp f v.securityBlob) SetupFails := by
  intro f i hp
  rcases setup_total hp with h | ⟨o, h⟩
  · exact .inl h
  · exact .inr ⟨o, h, setup_sound hp h⟩

theorem sorts_negotiate : Sorts ServerSetup.reply (fun f v => ∃ ps, Negotiated f ps v.challenge ∧
    (Capabilities.contains v.capabilities Capabilities.EXTENDED_SECURITY = true ↔ OffersExtended ps) ∧
    (Capabilities.contains v.capabilities Capabilities.UNICODE = true ↔ OffersUnicode ps)) NegotiateFails := by
  intro f i hp
  rcases negotiate_total hp with ⟨v, ps, h1, h2⟩ | ⟨o, h⟩
  · exact .inl ⟨v, h1, ps, h2⟩
  · exact .inr ⟨o, h, negotiate_sound hp h⟩

theorem bind_stopped {α : Type} {m : CM σ α} {k : α → CM σ Unit} {s s' : St σ} {x : Option Error} (h : m s = (stopped x, s')) :
    (m >>= k) s = (stopped x, s') := by
  cases x with
  | none => exact M.bind_fails h (fun a ha => by cases ha)
  | some e => exact M.bind_fails h (fun a ha => by cases ha)

/-- What a program does after a request: the request ends it, or it goes on with a good reply. -/
theorem step_cases {α : Type} {E : Env σ} {log : σ → List Bytes} (hlog : Logs E.V log) {m : Msg} (hk : KeepsMid m) {R : Reply α} {Good : Bytes → α → Prop}
    {Ending : Bytes → Out Error Unit → Prop} (hS : Sorts R Good Ending) {s : St σ} {ws : List WriteEv}
    (hw : ∀ x, WriteTrouble s.w.wsched x ↔ WriteTrouble ws x) {fr : Bytes} (hx : ¬ Exhausted E s) (hf : requestFrame s.cli m = .ok fr)
    (k : α → CM σ Unit) :
    (∃ p l, log ((command E m R >>= k) s).2.w.srv = log s.w.srv ++ l ∧
      Halts E.V ws s.w.srv s.w.inbox.flatten p Ending l ((command E m R >>= k) s).1) ∨
    ∃ p f v s', command E m R s = (.ok v, s') ∧ Round E.V s.w.srv s.w.inbox.flatten p f s'.w.srv s'.w.inbox.flatten ∧ Good f v ∧
      log s'.w.srv = log s.w.srv ++ [p] ∧ s'.cli = s.bump.cli ∧ ∀ x, WriteTrouble s'.w.wsched x ↔ WriteTrouble ws x := by
  rcases command_built hk R hx hf with ⟨x, s', h1, h2, h3⟩ | ⟨mid, x, s', h1, h2, h3, h4⟩ | ⟨f, i, s', h1, h2, h3, h4, h5, h6⟩
  · refine .inl ⟨message fr, [], ?_⟩
    rw [bind_stopped h2]
    exact ⟨by rw [h3, List.append_nil], .unsent ((hw x).mp h1)⟩
  · refine .inl ⟨message fr, [message fr], ?_⟩
    rw [bind_stopped h3]
    exact ⟨by rw [h4]; exact hlog _ _, .silent h1 h2⟩
  · have hl : log s'.w.srv = log s.w.srv ++ [message fr] := by rw [h5]; exact hlog _ _
    rcases hS f i h2 with ⟨v, h7, h8⟩ | ⟨o, h7, h8, h9⟩
    · rw [h7] at h3
      exact .inr ⟨message fr, f, v, s', h3, h1, h8, hl, h4, fun x => (h6 x).trans (hw x)⟩
    · refine .inl ⟨message fr, [message fr], ?_⟩
      have e : (command E m R >>= k) s = (o, s') := by
        rcases ha : accept R i (f.drop 32) with v | e | _ <;> rw [ha] at h3 h8 <;> subst h8
        · exact absurd rfl h9
        · exact M.bind_fails h3 (fun a ha => by cases ha)
        · exact M.bind_fails h3 (fun a ha => by cases ha)
      rw [e]
      exact ⟨hl, .ends h1 h7⟩

theorem bump_fits {s : St σ} {n : Nat} (hm : s.cli.mid.toNat + (n + 1) < 65535) : s.bump.cli.mid.toNat + n < 65535 := by
  show (s.cli.mid + 1).toNat + n < 65535
  rw [UInt16.toNat_add]
  have : (s.cli.mid.toNat + (1 : UInt16).toNat) % 2 ^ 16 = s.cli.mid.toNat + 1 := Nat.mod_eq_of_lt (by have := s.cli.mid.toNat_lt; show s.cli.mid.toNat + 1 < 65536; omega)
  omega

theorem fresh {E : Env σ} {s : St σ} (hm : s.cli.mid.toNat < 65535) : ¬ Exhausted E s := fun h => by have := h.2; omega

theorem classic_total {E : Env σ} {log : σ → List Bytes} (hlog : Logs E.V log) {s : St σ} (hm : s.cli.mid.toNat < 65535) {ws : List WriteEv}
    (hw : ∀ x, WriteTrouble s.w.wsched x ↔ WriteTrouble ws x) (key : Bytes) :
    ∃ l, log (authenticateNtlm E key s).2.w.srv = log s.w.srv ++ l ∧
      ClassicEnds E.V s.cli.auth s.cli.useUnicode ws s.w.srv s.w.inbox.flatten key l (authenticateNtlm E key s).1 := by
  unfold authenticateNtlm
  rw [M.bind_ok (show getCli s = (.ok s.cli, s) from rfl)]
  by_cases hk : key.length = 8
  · obtain ⟨k1, k2, k3, _, _, _, hs, hl⟩ := C52_response E.C s.cli.auth key hk
    generalize E.C.des k1 key ++ E.C.des k2 key ++ E.C.des k3 key = secret at hs hl
    rw [M.bind_ok (show M.ofRes Error.SMBError (ntlmv1Authenticate E.C s.cli.auth key) s = (.ok secret, s) by rw [hs]; rfl)]
    obtain ⟨h1, h2⟩ := classic_built s.cli s.cli.auth hl
    by_cases hc : classicSize s.cli.useUnicode s.cli.auth < 65536
    · obtain ⟨fr, hf⟩ := h1 hc
      rcases step_cases hlog (keeps_setup _) sorts_setup hw (fresh hm) hf (fun r => modifyCli (fun c => { c with uid := r.uid })) with
        ⟨p, l, h3, h4⟩ | ⟨p, f, v, s', h3, h4, h5, h6, _⟩
      · exact ⟨l, h3, .halts hk hc h4⟩
      · refine ⟨[p], ?_⟩
        unfold sessionSetup
        rw [M.bind_ok h3]
        exact ⟨h6, .done hk hc h4 h5⟩
    · refine ⟨[], ?_⟩
      have h3 := send_unbuilt E _ s _ (fresh hm) (h2 (by omega))
      have h4 : sessionSetup E s.cli.auth.user s.cli.auth.domain secret s = (.err (.SMBError (.CreatePacket "data length too big")), s.bump) := by
        unfold sessionSetup command
        exact M.bind_fails h3 (fun a ha => by cases ha)
      rw [M.bind_fails h4 (fun a ha => by cases ha)]
      exact ⟨by rw [List.append_nil]; rfl, .long hk (by omega)⟩
  · refine ⟨[], ?_⟩
    rw [M.bind_fails (show M.ofRes Error.SMBError (ntlmv1Authenticate E.C s.cli.auth key) s = (.panic, s) by
      rw [(ntlmv1_panics E.C s.cli.auth key).mpr hk]; rfl) (fun a ha => by cases ha)]
    exact ⟨by rw [List.append_nil], .key hk⟩

/-- A session setup that is too long. -/
theorem blob_unbuilt {E : Env σ} {s : St σ} (hm : s.cli.mid.toNat < 65535) {blob : Bytes} {t : String} (h : LongSetup s.cli.useUnicode blob.length t)
    (k : SessionSetupReply → CM σ Unit) : (sessionSetupNtlmv2 E blob >>= k) s = (.err (.SMBError (.CreatePacket t)), s.bump) := by
  have h3 := send_unbuilt E _ s _ (fresh hm) ((blob_built s.cli blob).2 t h)
  have h4 : sessionSetupNtlmv2 E blob s = (.err (.SMBError (.CreatePacket t)), s.bump) := by
    unfold sessionSetupNtlmv2 command
    exact M.bind_fails h3 (fun a ha => by cases ha)
  exact M.bind_fails h4 (fun a ha => by cases ha)

/-- The login with extended security after the first reply. -/
def respond (E : Env σ) (a : Auth) (m : Bytes) : CM σ Unit := do
  let challenge ← M.ofRes Error.NTLMError (ChallengeMsg.parse m)
  let time ← M.ofRes Error.NTLMError (encodeWindowsTime E.checked E.now)
  let response ← M.ofRes Error.NTLMError (challenge.response E.C a time E.random)
  let _ ← sessionSetupNtlmv2 E response
  pure ()

theorem response_total {E : Env σ} {log : σ → List Bytes} (hlog : Logs E.V log) {s : St σ} (hm : s.cli.mid.toNat < 65535) {ws : List WriteEv}
    (hw : ∀ x, WriteTrouble s.w.wsched x ↔ WriteTrouble ws x) (m : Bytes) (a : Auth) :
    ∃ l, log (respond E a m s).2.w.srv = log s.w.srv ++ l ∧
      ResponseEnds E a s.cli.useUnicode ws s.w.srv s.w.inbox.flatten m l (respond E a m s).1 := by
  unfold respond
  rcases challenge_parse_cases m with ⟨h, hp⟩ | ⟨h, hn, hp⟩ | ⟨c, flags, h, hc, hfl, hp⟩
  · refine ⟨[], ?_⟩
    rw [hp, M.bind_fails (show (M.ofRes Error.NTLMError .panic : CM σ ChallengeMsg) s = (.panic, s) from rfl) (fun a ha => by cases ha)]
    exact ⟨by rw [List.append_nil], .bad h⟩
  · refine ⟨[], ?_⟩
    rw [hp, M.bind_fails (show (M.ofRes Error.NTLMError (.err .InvalidPacket) : CM σ ChallengeMsg) s = (.err (.NTLMError .InvalidPacket), s) from rfl)
      (fun a ha => by cases ha)]
    exact ⟨by rw [List.append_nil], .foreign h hn⟩
  · rw [hp, M.bind_ok (show (M.ofRes Error.NTLMError (.ok c) : CM σ ChallengeMsg) s = (.ok c, s) from rfl)]
    rcases clock_cases E.checked E.now with ⟨ht, he⟩ | ⟨ht, time, he⟩
    · refine ⟨[], ?_⟩
      rw [he, M.bind_fails (show (M.ofRes Error.NTLMError .panic : CM σ UInt64) s = (.panic, s) from rfl) (fun a ha => by cases ha)]
      exact ⟨by rw [List.append_nil], .clock hc ht⟩
    · rw [he, M.bind_ok (show (M.ofRes Error.NTLMError (.ok time) : CM σ UInt64) s = (.ok time, s) from rfl)]
      obtain ⟨d, us, w, hd, hu, hwk, ⟨hl, blob, hr, hbl⟩ | ⟨hl, hr⟩⟩ := response_cases E.C a hfl time E.random_len
      · rw [hr, M.bind_ok (show (M.ofRes Error.NTLMError (.ok blob) : CM σ Bytes) s = (.ok blob, s) from rfl)]
        by_cases hs : ∃ t, LongSetup s.cli.useUnicode blob.length t
        · obtain ⟨t, hs⟩ := hs
          refine ⟨[], ?_⟩
          rw [blob_unbuilt hm hs]
          exact ⟨by rw [List.append_nil]; rfl, .long hc ht hd hu hwk hl (hbl ▸ hs)⟩
        · have hs : ∀ t, ¬ LongSetup s.cli.useUnicode blob.length t := fun t h => hs ⟨t, h⟩
          obtain ⟨fr, hf⟩ := (blob_built s.cli blob).1 hs
          rcases step_cases hlog (keeps_setup _) sorts_setup hw (fresh hm) hf (fun _ => pure ()) with ⟨p, l, h3, h4⟩ | ⟨p, f, v, s', h3, h4, h5, h6, _⟩
          · exact ⟨l, h3, .halts hc ht hd hu hwk hl (hbl ▸ hs) h4⟩
          · refine ⟨[p], ?_⟩
            unfold sessionSetupNtlmv2
            rw [M.bind_ok h3]
            exact ⟨h6, .done hc ht hd hu hwk hl (hbl ▸ hs) h4 h5⟩
      · refine ⟨[], ?_⟩
        rw [hr, M.bind_fails (show (M.ofRes Error.NTLMError (.err .InputParameter) : CM σ Bytes) s = (.err (.NTLMError .InputParameter), s) from rfl)
          (fun a ha => by cases ha)]
        exact ⟨by rw [List.append_nil], .names hc ht hd hu hwk hl⟩

theorem extended_total {E : Env σ} {log : σ → List Bytes} (hlog : Logs E.V log) {s : St σ} (hm : s.cli.mid.toNat + 1 < 65535) {ws : List WriteEv}
    (hw : ∀ x, WriteTrouble s.w.wsched x ↔ WriteTrouble ws x) :
    ∃ l, log (authenticateNtlmv2 E s).2.w.srv = log s.w.srv ++ l ∧
      ExtendedEnds E s.cli.auth s.cli.useUnicode ws s.w.srv s.w.inbox.flatten l (authenticateNtlmv2 E s).1 := by
  unfold authenticateNtlmv2
  rw [M.bind_ok (show getCli s = (.ok s.cli, s) from rfl)]
  rcases init_cases ntlmInitFlags s.cli.auth.domain s.cli.auth.workstation with ⟨hn, blob, hi, hbl⟩ | ⟨hn, hi⟩
  · rw [hi, M.bind_ok (show (M.ofRes Error.NTLMError (.ok blob) : CM σ Bytes) s = (.ok blob, s) from rfl)]
    by_cases hs : ∃ t, LongSetup s.cli.useUnicode blob.length t
    · obtain ⟨t, hs⟩ := hs
      refine ⟨[], ?_⟩
      rw [blob_unbuilt (by omega) hs]
      exact ⟨by rw [List.append_nil]; rfl, .long hn (hbl ▸ hs)⟩
    · have hs : ∀ t, ¬ LongSetup s.cli.useUnicode blob.length t := fun t h => hs ⟨t, h⟩
      obtain ⟨fr, hf⟩ := (blob_built s.cli blob).1 hs
      rcases step_cases hlog (keeps_setup _) sorts_setup hw (fresh (by omega)) hf (fun r => do
          modifyCli (fun c => { c with uid := r.uid })
          respond E s.cli.auth r.securityBlob) with ⟨p, l, h3, h4⟩ | ⟨p, f, v, s', h3, h4, h5, h6, h7, h8⟩
      · exact ⟨l, h3, .halts hn (hbl ▸ hs) h4⟩
      · have hb : (s'.withCli (s'.cli.assigned v.uid)).cli.mid.toNat < 65535 := by
          show s'.cli.mid.toNat < 65535
          rw [h7]; exact bump_fits (n := 0) hm
        obtain ⟨l, h9, h10⟩ := response_total (s := s'.withCli (s'.cli.assigned v.uid)) hlog hb h8 v.securityBlob s.cli.auth
        refine ⟨p :: l, ?_⟩
        have e : (sessionSetupNtlmv2 E blob >>= fun r => do
          modifyCli (fun c => { c with uid := r.uid })
          respond E s.cli.auth r.securityBlob) s = respond E s.cli.auth v.securityBlob (s'.withCli (s'.cli.assigned v.uid)) := by
          unfold sessionSetupNtlmv2
          rw [M.bind_ok h3]; rfl
        have e' := e
        unfold respond at e'
        rw [e']
        have hu : (s'.withCli (s'.cli.assigned v.uid)).cli.useUnicode = s.cli.useUnicode := by
          show s'.cli.useUnicode = _
          rw [h7]; rfl
        rw [hu] at h10
        refine ⟨h9.trans ?_, .next hn (hbl ▸ hs) h4 h5 h10⟩
        show log s'.w.srv ++ l = _
        rw [h6, List.append_assoc]; rfl
  · refine ⟨[], ?_⟩
    rw [hi, M.bind_fails (show (M.ofRes Error.NTLMError (.err .InputParameter) : CM σ Bytes) s = (.err (.NTLMError .InputParameter), s) from rfl)
      (fun a ha => by cases ha)]
    exact ⟨by rw [List.append_nil], .names hn⟩

theorem login_total {E : Env σ} {log : σ → List Bytes} (hlog : Logs E.V log) {s : St σ} (hm : s.cli.mid.toNat + 2 < 65535) {ws : List WriteEv}
    (hw : ∀ x, WriteTrouble s.w.wsched x ↔ WriteTrouble ws x) :
    ∃ l, log (setupConnection E s).2.w.srv = log s.w.srv ++ l ∧
      LoginEnds E s.cli.auth ws s.w.srv s.w.inbox.flatten l (setupConnection E s).1 := by
  obtain ⟨fr, hf⟩ := negotiate_built s.cli
  rcases step_cases hlog keeps_negotiate sorts_negotiate hw (fresh (by omega)) hf (fun setup => do
      modifyCli (fun c => { c with
        maxSmbSize := setup.maxBufferSize.toNat, useUnicode := Capabilities.contains setup.capabilities Capabilities.UNICODE })
      if Capabilities.contains setup.capabilities Capabilities.EXTENDED_SECURITY then authenticateNtlmv2 E
      else authenticateNtlm E setup.challenge) with ⟨p, l, h3, h4⟩ | ⟨p, f, v, s', h3, h4, ⟨ps, h5, hx, hu⟩, h6, h7, h8⟩
  · exact ⟨l, h3, .halts h4⟩
  · rw [setup_step h3]
    have ha : (s'.withCli (s'.cli.configured v)).cli.auth = s.cli.auth := by
      show s'.cli.auth = _
      rw [h7]; rfl
    have hb : (s'.withCli (s'.cli.configured v)).cli.mid.toNat + 1 < 65535 := by
      show s'.cli.mid.toNat + 1 < 65535
      rw [h7]; exact bump_fits hm
    have hlg : ∀ l, log s'.w.srv ++ l = log s.w.srv ++ (p :: l) := fun l => by rw [h6, List.append_assoc]; rfl
    by_cases hc : Capabilities.contains v.capabilities Capabilities.EXTENDED_SECURITY = true
    · rw [if_pos hc]
      obtain ⟨l, h9, h10⟩ := extended_total (s := s'.withCli (s'.cli.configured v)) hlog hb h8
      rw [ha] at h10
      exact ⟨p :: l, h9.trans (hlg l), .extended h4 h5 (hx.mp hc) hu h10⟩
    · rw [if_neg hc]
      obtain ⟨l, h9, h10⟩ := classic_total (s := s'.withCli (s'.cli.configured v)) hlog (by omega) h8 v.challenge
      rw [ha] at h10
      exact ⟨p :: l, h9.trans (hlg l), .classic h4 h5 (fun h => hc (hx.mpr h)) hu h10⟩

/-- **C72.** The outcome of a login is the one that what was sent, and what the server answered, give. -/
theorem C72_login {E : Env σ} {log : σ → List Bytes} (hlog : Logs E.V log) {s : St σ} (hm : s.cli.mid.toNat + 2 < 65535) (o : Out Error Unit) :
    (setupConnection E s).1 = o ↔ ∃ l, log (setupConnection E s).2.w.srv = log s.w.srv ++ l ∧
      LoginEnds E s.cli.auth s.w.wsched s.w.srv s.w.inbox.flatten l o := by
  obtain ⟨l, hl, h⟩ := login_total hlog hm (fun _ => Iff.rfl)
  constructor
  · rintro rfl; exact ⟨l, hl, h⟩
  · rintro ⟨l', hl', h'⟩
    rw [hl] at hl'
    cases List.append_cancel_left hl'
    exact loginEnds_det h h'

namespace Demo

/-- Logins with different outcomes: what the server answers, and how it ends. -/
def loginOutcomes : List (List Bytes × Out Error Unit) :=
  [(legacy (.Known .SUCCESS), .ok ()), (modern (.Known .SUCCESS), .ok ()),
   (legacy (.Known .ACCESS_DENIED), .err (.ServerError (.Known .ACCESS_DENIED))),
   (modern (.Known .ACCESS_DENIED), .err (.ServerError (.Known .ACCESS_DENIED))),
   ([], .err (.NetBios (.IoError .unexpectedEof))),
   ([replyWith .Close (.Known .SUCCESS) 0 0 [] []], .err (.UnexpectedReply .Negotiate .Close)),
   ([replyWith .Negotiate (.Known .SUCCESS) 0 0 [1, 0] []], .err (.SMBError (.Unsupported "negotiate header with too few parameter"))),
   ([replyWith .Negotiate (.Known .SUCCESS) 0 0 (negotiateParams 0xffff 0xf3fd 8) []], .err (.SMBError .NoDialect)),
   ([replyWith .Negotiate (.Known .SUCCESS) 0 0 (negotiateParams 1 0xf3fd 8) []], .err (.SMBError .InvalidHeader)),
   ([replyWith .Negotiate (.Known .SUCCESS) 0 0 (negotiateParams 0 0xf3fd 8) [1, 2]], .err (.SMBError .InvalidData)),
   ((legacy (.Known .SUCCESS)).take 1 ++ [replyWith .SessionSetup (.Known .SUCCESS) 100 1 [0x75, 0, 0, 0, 0, 0] []],
     .err (.SMBError (.Unsupported "AndX chaining is currently not supported"))),
   ((modern (.Known .SUCCESS)).take 1 ++ [replyWith .SessionSetup (.Known .MORE_PROCESSING) 100 1 [0xff, 0, 0, 0, 0, 0, 54, 0] (challenge.set 8 3)],
     .err (.NTLMError .InvalidPacket))] ++ crashing.map (·, .panic)

theorem login_outcomes : ∀ x ∈ loginOutcomes, (setupConnection (env true) (loginSt defaultAuth x.1)).1 = x.2 := by decide +kernel

/-- non-vacuity of `C72_login`: each of these outcomes has its cause, and no login has the cause of another outcome. -/
example : ∀ x ∈ loginOutcomes, ∀ o, (∃ l, (setupConnection (env true) (loginSt defaultAuth x.1)).2.w.srv.2 = l ∧
    LoginEnds (env true) defaultAuth [] (loginSt defaultAuth x.1).w.srv [] l o) ↔ o = x.2 := by
  intro x hx o
  have h := C72_login (E := env true) (log := Prod.snd) (logs_logged _) (s := loginSt defaultAuth x.1) (show (0 : UInt16).toNat + 2 < 65535 by decide) o
  rw [login_outcomes x hx] at h
  exact h.symm.trans eq_comm

/-- A login that cannot be written, and one that waits for ever. -/
example (E : Env σ) (a : Auth) (v : σ) (b : Bytes) : LoginEnds E a [.accept 7, .fail (.os 32)] v b [] (.err (.NetBios (.IoError (.os 32)))) ∧
    LoginEnds E a [.accept 7, .block] v b [] .pending :=
  ⟨.halts (p := []) (.unsent (x := some _) (.accept _ (.fail _ _))), .halts (p := []) (.unsent (x := none) (.accept _ (.block _)))⟩

/-- Names that do not fit: no request of the login has room for them. -/
example {E : Env σ} {ws : List WriteEv} {v : σ} {b key : Bytes} (hk : key.length = 8) (u : Bool) {n m l : Nat} (hn : 32768 ≤ n) (hm : 65536 ≤ m)
    (hl : 32768 ≤ l) (hl' : l < 65536) :
    ClassicEnds E.V ⟨List.replicate n 'x', [], [], []⟩ u ws v b key [] (.err (.SMBError (.CreatePacket "data length too big"))) ∧
    ExtendedEnds E ⟨[], [], List.replicate m 'x', []⟩ u ws v b [] (.err (.NTLMError .InputParameter)) ∧
    ExtendedEnds E ⟨[], List.replicate l 'x', List.replicate l 'x', []⟩ u ws v b [] (.err (.SMBError (.CreatePacket "blob in SessionSetup too big"))) := by
  refine ⟨.long hk ?_, .names ?_, .long ?_ (.blob ?_)⟩
  · show 65536 ≤ 53 + 2 * utf16Len (List.replicate n 'x') + 2 * utf16Len [] + _
    rw [utf16Len_replicate _ _ (by decide)]; omega
  · rintro ⟨h, _⟩
    have h : (utf8Bytes (List.replicate m 'x')).length < 65536 := h
    rw [utf8_x] at h; omega
  · have h : (utf8Bytes (List.replicate l 'x')).length < 65536 := by rw [utf8_x]; omega
    exact ⟨h, h⟩
  · show 65536 ≤ 40 + (utf8Bytes (List.replicate l 'x')).length + (utf8Bytes (List.replicate l 'x')).length
    rw [utf8_x]; omega

/-- A clock before 1601, and one far in the future. -/
example : ClockFails true (-5000000) ∧ ¬ ClockFails false (-5000000) ∧ ClockFails false (2 ^ 80) ∧ ¬ ClockFails true 0 := by
  refine ⟨.inr (.inr ⟨rfl, .inl (by decide)⟩), ?_, .inr (.inl (by decide)), ?_⟩ <;> rintro (h | h | ⟨h, h' | h'⟩) <;> revert h <;> try decide
  · revert h'; decide
  · revert h'; decide

end Demo

/-! ## Opening -/

/-- What the response to a session request means. -/
def sessionOut : Out NbError Frame → Out NbError Unit
  | .ok .PositiveResponse => .ok ()
  | .ok (.NegativeResponse code) => .err (.CreateSession code)
  | .ok _ => .err .InvalidFrame
  | .err e => .err e
  | .panic => .panic
  | .pending => .pending
  | .running => .running

theorem sessionOut_stopped (x : Option NbError) : sessionOut (stoppedNb x) = stoppedNb x := by cases x <;> rfl

theorem u24beAt_four {b : Bytes} {n : Nat} (h : u24beAt b 1 = some n) : 4 ≤ b.length := by
  match b with
  | [] => simp [u24beAt, u8At] at h
  | [_] => simp [u24beAt, u8At] at h
  | [_, _] => simp [u24beAt, u8At] at h
  | [_, _, _] => simp [u24beAt, u8At] at h
  | _ :: _ :: _ :: _ :: _ => simp

theorem noSession_flat {t : Tail} {b : Bytes} {x : Option NbError} (h : NoSession t b x) : sessionOut (flatRecv t b).1 = stoppedNb x := by
  cases h with
  | header hl => rw [flatRecv_short4 t b hl, tail_out, sessionOut_stopped]
  | @payload _ n hn hm hl =>
    obtain ⟨ty, len, r, h3, rfl⟩ := split4 b (u24beAt_four hn)
    rw [u24beAt_len ty r h3] at hn
    cases hn
    rw [flatRecv_cons t ty len r h3, if_neg (by simp only [maxPayload, MAX_FRAME_LENGTH] at *; omega), if_pos (by simp [h3] at hl; omega), tail_out,
      sessionOut_stopped]
  | @big _ n hn hm =>
    obtain ⟨ty, len, r, h3, rfl⟩ := split4 b (u24beAt_four hn)
    rw [u24beAt_len ty r h3] at hn
    cases hn
    rw [flatRecv_cons t ty len r h3, if_pos (by simp only [maxPayload, MAX_FRAME_LENGTH] at *; omega)]
    rfl
  | @unknown ty d rest hl h0 hc => rw [flatRecv_packet t ty d rest hl, controlSize_none h0 hc]; rfl
  | @negative code rest => rw [flatRecv_packet t 0x83 [code] rest (by simp [maxPayload])]; rfl
  | @size ty d rest hl h =>
    rw [flatRecv_packet t ty d rest hl]
    rcases h with ⟨rfl, h⟩ | ⟨rfl, h⟩
    · rw [(controlSize_some (P := (· = 0)) rfl d).1 h]; rfl
    · rw [(controlSize_some (P := (· = 1)) rfl d).1 h]; rfl
  | @other ty d rest hl h =>
    rw [flatRecv_packet t ty d rest hl]
    rcases h with rfl | rfl | rfl | rfl
    · rfl
    · rfl
    · rw [show Frame.new 0x84 d = if d.length ≠ 6 then .err .InvalidFrame else .ok .Retarget from rfl]
      by_cases hz : d.length ≠ 6
      · rw [if_pos hz]; rfl
      · rw [if_neg hz]; rfl
    · rw [show Frame.new 0x85 d = if d.length ≠ 0 then .err .InvalidFrame else .ok .Keepalive from rfl]
      by_cases hz : d.length ≠ 0
      · rw [if_pos hz]; rfl
      · rw [if_neg hz]; rfl

theorem session_stream (t : Tail) (b : Bytes) : (∃ rest, b = [0x82, 0, 0, 0] ++ rest) ∨ ∃ x, NoSession t b x := by
  by_cases h4 : b.length < 4
  · exact .inr ⟨_, .header h4⟩
  · obtain ⟨ty, len, r, h3, rfl⟩ := split4 b (by omega)
    have hu := u24beAt_len ty r h3
    by_cases hm : maxPayload < beVal len
    · exact .inr ⟨_, .big hu hm⟩
    · by_cases hl : r.length < beVal len
      · exact .inr ⟨_, .payload hu (by omega) (by simp [h3]; omega)⟩
      · have hd : (r.take (beVal len)).length = beVal len := by simp; omega
        have e : ty :: (len ++ r) = packet ty (r.take (beVal len)) ++ r.drop (beVal len) := by
          rw [← packet_of_len ty len _ h3 hd]
          simp
        rw [e]
        have hd' : (r.take (beVal len)).length ≤ maxPayload := by omega
        generalize r.take (beVal len) = d at *
        generalize r.drop (beVal len) = rest at *
        by_cases h0 : ty = 0x00
        · exact .inr ⟨_, .other hd' (.inl h0)⟩
        · by_cases h1 : ty = 0x81
          · exact .inr ⟨_, .other hd' (.inr (.inl h1))⟩
          · by_cases h2 : ty = 0x84 ∨ ty = 0x85
            · exact .inr ⟨_, .other hd' (.inr (.inr h2))⟩
            · by_cases h5 : ty = 0x82
              · by_cases hz : d.length = 0
                · subst h5
                  rw [List.length_eq_zero_iff] at hz
                  subst hz
                  exact .inl ⟨rest, rfl⟩
                · exact .inr ⟨_, .size hd' (.inl ⟨h5, hz⟩)⟩
              · by_cases h6 : ty = 0x83
                · subst h6
                  by_cases hz : d.length = 1
                  · match d, hz with
                    | [code], _ => exact .inr ⟨_, .negative⟩
                  · exact .inr ⟨_, .size hd' (.inr ⟨rfl, hz⟩)⟩
                · refine .inr ⟨_, .unknown hd' h0 ?_⟩
                  unfold controlSize
                  split <;> first | rfl | (exfalso; simp_all; done)

theorem positive_flat (t : Tail) (rest : Bytes) : flatRecv t ([0x82, 0, 0, 0] ++ rest) = (.ok .PositiveResponse, rest) :=
  flatRecv_packet t 0x82 [] rest (by simp [maxPayload])

/-- Everything that can happen to a session request. -/
theorem session_cases (V : Server σ) (w : World σ) (name : Str) :
    (∃ x w', WriteTrouble w.wsched x ∧ createSession V "*SMBSERVER".toList name w = (stoppedNb (x.map .IoError), w') ∧ w'.srv = w.srv) ∨
    (∃ x w', NoSession (V.tail (V.react w.srv (C06_frame name)).1) (w.inbox.flatten ++ (V.react w.srv (C06_frame name)).2.flatten) x ∧
      createSession V "*SMBSERVER".toList name w = (stoppedNb x, w') ∧ w'.srv = (V.react w.srv (C06_frame name)).1) ∨
    ∃ rest w', w.inbox.flatten ++ (V.react w.srv (C06_frame name)).2.flatten = [0x82, 0, 0, 0] ++ rest ∧
      createSession V "*SMBSERVER".toList name w = (.ok (), w') ∧ w'.srv = (V.react w.srv (C06_frame name)).1 ∧ w'.inbox.flatten = rest ∧
      ∀ x, WriteTrouble w'.wsched x ↔ WriteTrouble w.wsched x := by
  have hsend : sendFrame V (.SessionRequest (sessionRequestPayload "*SMBSERVER".toList name)) w = writeExactly V (C06_frame name) w := by
    simp only [sendFrame, sessionRequest_encode, M.bind_apply, M.bind, M.ofRes]
  have ht := writeLoop_trouble w.wsched (C06_frame name) w.out
  have hk := writeLoop_keeps w.wsched (C06_frame name) w.out
  rcases hw : writeLoop w.wsched (C06_frame name) w.out with ⟨r, ws, out⟩
  rw [hw] at ht hk
  unfold createSession
  simp only [writeExactly, hw] at hsend
  rcases ht with h | ⟨e, h, ht⟩ | ⟨h, ht⟩ <;> cases h
  · right
    simp only at hsend
    generalize hw' : ({ inbox := w.inbox ++ (V.react w.srv (C06_frame name)).2, wsched := ws, out := out
                        srv := (V.react w.srv (C06_frame name)).1 } : World σ) = w' at hsend
    have e2 : w'.srv = (V.react w.srv (C06_frame name)).1 := by rw [← hw']
    have e3 : w'.flat = w.inbox.flatten ++ (V.react w.srv (C06_frame name)).2.flatten := by rw [← hw']; simp [World.flat]
    have e4 : w'.wsched = ws := by rw [← hw']
    rw [M.bind_ok hsend, ← e2, ← e3]
    obtain ⟨ib, f1, f2⟩ := recvFrame_flat V w'
    rcases session_stream (V.tail w'.srv) w'.flat with ⟨rest, h⟩ | ⟨x, h⟩
    · right
      rw [h, positive_flat] at f1 f2
      refine ⟨rest, { w' with inbox := ib }, h, ?_, rfl, f1, fun x => ?_⟩
      · rw [M.bind_ok f2]; rfl
      · show WriteTrouble w'.wsched x ↔ _
        rw [e4]; exact hk rfl x
    · left
      have hn := noSession_flat h
      refine ⟨x, { w' with inbox := ib }, h, ?_, rfl⟩
      generalize (flatRecv (V.tail w'.srv) w'.flat).1 = o at f2 hn
      rw [← hn]
      cases o with
      | ok f => rw [M.bind_ok f2]; cases f <;> rfl
      | err e => exact M.bind_err f2
      | panic => exact M.bind_fails f2 (fun a ha => by cases ha)
      | pending => exact M.bind_pending f2
      | running => exact M.bind_fails f2 (fun a ha => by cases ha)
  · exact .inl ⟨some e, _, ht, M.bind_err hsend, rfl⟩
  · exact .inl ⟨none, _, ht, M.bind_pending hsend, rfl⟩

theorem noSession_det {t : Tail} {b : Bytes} {x y : Option NbError} (h : NoSession t b x) (h' : NoSession t b y) : x = y := by
  have e : (stoppedNb x : Out NbError Unit) = stoppedNb y := by rw [← noSession_flat h, noSession_flat h']
  cases x <;> cases y <;> cases e <;> rfl

theorem noSession_positive {t : Tail} {b rest : Bytes} {x : Option NbError} (h : NoSession t b x) : b ≠ [0x82, 0, 0, 0] ++ rest := by
  rintro rfl
  have := noSession_flat h
  rw [positive_flat] at this
  cases x <;> cases this

theorem openEnds_det {E : Env σ} {dial : Dial σ} {a : Auth} {port : Option UInt16} {w : World σ} {l : List Bytes} {o o' : Out Error Unit}
    (h : OpenEnds E dial a port w l o) (h' : OpenEnds E dial a port w l o') : o = o' := by
  cases h with
  | raw _ h => cases h' with | raw _ h' => exact loginEnds_det h h'
  | direct hd h =>
    cases h' with
    | direct _ h' => exact loginEnds_det h h'
    | unsent hd' => rw [hd] at hd'; cases hd'
    | denied hd' => rw [hd] at hd'; cases hd'
    | session hd' => rw [hd] at hd'; cases hd'
  | unsent hd _ h =>
    cases h' with
    | direct hd' => rw [hd] at hd'; cases hd'
    | unsent _ _ h' => rw [writeTrouble_det h h']
  | denied hd _ _ h =>
    cases h' with
    | direct hd' => rw [hd] at hd'; cases hd'
    | denied _ _ _ h' => rw [noSession_det h h']
    | session _ _ _ hr => exact absurd hr (noSession_positive h)
  | session hd _ _ hr h =>
    cases h' with
    | direct hd' => rw [hd] at hd'; cases hd'
    | denied _ _ _ h' => exact absurd hr (noSession_positive h')
    | session _ _ _ hr' h' =>
      cases List.append_cancel_left (hr.symm.trans hr')
      exact loginEnds_det h h'

/-- The connection that is established is the one that was dialled. -/
theorem openEnds_dials {E : Env σ} {dial : Dial σ} {a : Auth} {port : Option UInt16} {w : World σ} {l : List Bytes} {o : Out Error Unit}
    (h : OpenEnds E dial a port w l o) {w' : World σ} {l' : List Bytes} {o' : Out Error Unit} (h' : OpenEnds E dial a port w' l' o') : w = w' := by
  cases h <;> cases h' <;> simp_all

theorem unreachable_not {E : Env σ} {dial : Dial σ} {a : Auth} {port : Option UInt16} {w : World σ} {l : List Bytes} {o : Out Error Unit}
    (h : OpenEnds E dial a port w l o) (e : IoErr) : ¬ Unreachable dial port e := by
  intro h'
  cases h <;> cases h' <;> simp_all

theorem unreachable_det {dial : Dial σ} {port : Option UInt16} {e e' : IoErr} (h : Unreachable dial port e) (h' : Unreachable dial port e') : e = e' := by
  cases h <;> cases h' <;> simp_all

theorem netErr_stopped (x : Option NbError) : (stoppedNb x).netErr = stopped (x.map .NetBios) := by cases x <;> rfl

theorem open_total {E : Env σ} {log : σ → List Bytes} (hlog : Logs E.V log) (dial : Dial σ) (port : Option UInt16) (auth : Option Auth) :
    (∃ e, Unreachable dial port e ∧ openCifs E dial port auth = ⟨.err (.NetBios (.IoError e)), none, (openCifs E dial port auth).ports⟩) ∨
    ∃ s w l, (openCifs E dial port auth).state = some s ∧ log s.w.srv = log w.srv ++ l ∧
      OpenEnds E dial (auth.getD defaultAuth) port w l (openCifs E dial port auth).outcome := by
  rw [openCifs_eq]
  generalize auth.getD defaultAuth = a
  have hlogin : ∀ w ports, ∃ s l, (finishOpen E a { outcome := .ok (), world := some w, ports }).state = some s ∧ log s.w.srv = log w.srv ++ l ∧
      LoginEnds E a w.wsched w.srv w.inbox.flatten l (finishOpen E a { outcome := .ok (), world := some w, ports }).outcome := by
    intro w ports
    obtain ⟨l, h⟩ := login_total (s := { cli := .init a, w }) hlog (show (0 : UInt16).toNat + 2 < 65535 by decide) (fun _ => Iff.rfl)
    exact ⟨_, l, rfl, h⟩
  cases port with
  | some p =>
    cases hd : dial p with
    | error e =>
      have : dialled E.V dial (some p) a = ⟨.err (.IoError e), none, [p]⟩ := by simp only [dialled, openRaw, hd]
      rw [this]
      exact .inl ⟨e, .port hd, rfl⟩
    | ok w =>
      have : dialled E.V dial (some p) a = ⟨.ok (), some w, [p]⟩ := by simp only [dialled, openRaw, hd]
      rw [this]
      obtain ⟨s, l, h1, h2, h3⟩ := hlogin w [p]
      exact .inr ⟨s, w, l, h1, h2, .raw hd h3⟩
  | none =>
    cases hd : dial 445 with
    | ok w =>
      have : dialled E.V dial none a = ⟨.ok (), some w, [445]⟩ := by simp only [dialled, openNetbios, hd]
      rw [this]
      obtain ⟨s, l, h1, h2, h3⟩ := hlogin w [445]
      exact .inr ⟨s, w, l, h1, h2, .direct hd h3⟩
    | error e =>
      cases hd' : dial 139 with
      | error e' =>
        have : dialled E.V dial none a = ⟨.err (.IoError e'), none, [445, 139]⟩ := by simp only [dialled, openNetbios, hd, hd']
        rw [this]
        exact .inl ⟨e', .both hd hd', rfl⟩
      | ok w =>
        have hx : dialled E.V dial none a =
            Dialled.mk (createSession E.V "*SMBSERVER".toList a.workstation w).1 (some (createSession E.V "*SMBSERVER".toList a.workstation w).2) [445, 139] := by
          simp only [dialled, openNetbios, hd, hd']
        rw [hx]
        have hstop : ∀ (x : Option NbError) (w' : World σ), finishOpen E a ⟨stoppedNb x, some w', [445, 139]⟩ =
            ⟨stopped (x.map .NetBios), some { cli := .init a, w := w' }, [445, 139]⟩ := by
          intro x w'; cases x <;> rfl
        have hp := C06_isSessionRequest a.workstation
        right
        rcases session_cases E.V w a.workstation with ⟨x, w', h1, h2, h3⟩ | ⟨x, w', h1, h2, h3⟩ | ⟨rest, w', h1, h2, h3, h4, h5⟩ <;> rw [h2]
        · rw [hstop]
          refine ⟨_, w, [], rfl, by rw [List.append_nil]; exact congrArg log h3, ?_⟩
          have := OpenEnds.unsent (E := E) (a := a) hd hd' h1
          cases x <;> exact this
        · rw [hstop]
          exact ⟨_, w, [C06_frame a.workstation], rfl, (congrArg log h3).trans (hlog _ _), .denied hd hd' hp h1⟩
        · obtain ⟨l, h6, h7⟩ := login_total (s := { cli := .init a, w := w' }) hlog (show (0 : UInt16).toNat + 2 < 65535 by decide) h5
          refine ⟨_, w, C06_frame a.workstation :: l, rfl, ?_, .session hd hd' hp h1 ?_⟩
          · refine h6.trans ?_
            show log w'.srv ++ l = _
            rw [h3, hlog, List.append_assoc]; rfl
          · have h7 : LoginEnds E a w.wsched w'.srv w'.inbox.flatten l (setupConnection E { cli := .init a, w := w' }).1 := h7
            rw [h3, h4] at h7
            exact h7

/-- **C72.** The outcome of `open` is the one that the ports, what was sent, and what the server answered, give. -/
theorem C72_open {E : Env σ} {log : σ → List Bytes} (hlog : Logs E.V log) (dial : Dial σ) (port : Option UInt16) (auth : Option Auth) (o : Out Error Unit) :
    (openCifs E dial port auth).outcome = o ↔ (∃ e, Unreachable dial port e ∧ o = .err (.NetBios (.IoError e))) ∨
      ∃ s w l, (openCifs E dial port auth).state = some s ∧ log s.w.srv = log w.srv ++ l ∧ OpenEnds E dial (auth.getD defaultAuth) port w l o := by
  rcases open_total hlog dial port auth with ⟨e, h1, h2⟩ | ⟨s, w, l, h1, h2, h3⟩
  · constructor
    · rintro rfl; exact .inl ⟨e, h1, congrArg Opened.outcome h2⟩
    · rintro (⟨e', h3, rfl⟩ | ⟨s, w, l, _, _, h3⟩)
      · rw [unreachable_det h3 h1]; exact congrArg Opened.outcome h2
      · exact absurd h1 (unreachable_not h3 e)
  · constructor
    · rintro rfl; exact .inr ⟨s, w, l, h1, h2, h3⟩
    · rintro (⟨e', h4, rfl⟩ | ⟨s', w', l', h4, h5, h6⟩)
      · exact absurd h4 (unreachable_not h3 e')
      · rw [h1] at h4; cases h4
        cases openEnds_dials h3 h6
        rw [h2] at h5
        cases List.append_cancel_left h5
        exact openEnds_det h3 h6

namespace Demo

/-- A server that is reached on port 139 only. -/
def dial139 (ws : List WriteEv) (answers : List (List Bytes)) : Dial (List (List Bytes) × List Bytes) := fun p =>
  if p = 139 then .ok { inbox := [], wsched := ws, out := [], srv := (answers, []) } else .error (.os 111)

/-- non-vacuity of `C72_open`: the ways in which a session request ends. -/
example : (∀ p, (openCifs (env true) (fun _ => .error (.os 111)) p none).outcome = .err (.NetBios (.IoError (.os 111)))) ∧
    (openCifs (env true) (dial139 [.accept 5, .fail (.os 32)] []) none none).outcome = .err (.NetBios (.IoError (.os 32))) ∧
    (openCifs (env true) (dial139 [.block] []) none none).outcome = .pending ∧
    (openCifs (env true) (dial139 [] []) none none).outcome = .err (.NetBios (.IoError .unexpectedEof)) ∧
    (openCifs (env true) (dial139 [] [[[0x83, 0, 0, 1, 0x82]]]) none none).outcome = .err (.NetBios (.CreateSession 0x82)) ∧
    (openCifs (env true) (dial139 [] [[[0x83, 0, 0, 0]]]) none none).outcome = .err (.NetBios .InvalidFrame) ∧
    (openCifs (env true) (dial139 [] [[[0x85, 0, 0, 0], [0x82, 0, 0, 0]]]) none none).outcome = .err (.NetBios .InvalidFrame) ∧
    (openCifs (env true) (dial139 [] [[[0x86, 0, 0, 0]]]) none none).outcome = .err (.NetBios (.InvalidFrameType 0x86)) ∧
    (openCifs (env true) (dial139 [] [[[0x82, 0xff, 0, 0]]]) none none).outcome = .err (.NetBios .FrameTooBig) ∧
    (openCifs (env true) (dial139 [] [[[0x83, 0, 0, 1]]]) none none).outcome = .err (.NetBios .UnexpectedEOF) ∧
    (openCifs (env true) (dial139 [] ([[0x82, 0], [0, 0]] :: (legacy (.Known .SUCCESS)).map (fun r => [message r]))) none none).outcome = .ok () := by
  refine ⟨fun p => by cases p <;> rfl, ?_⟩
  decide +kernel

/-- A negative response is the cause of an outcome, directly. -/
example (E : Env σ) (a : Auth) (w : World σ) (p : Bytes) (hp : IsSessionRequest p (netbiosName "*SMBSERVER".toList) (netbiosName a.workstation))
    (hi : w.inbox.flatten = []) (h : (E.V.react w.srv p).2 = [[0x83, 0], [0, 1, 0x8f]]) :
    OpenEnds E (fun q => if q = 139 then .ok w else .error (.os 111)) a none w [p] (.err (.NetBios (.CreateSession 0x8f))) := by
  refine .denied (x := some (.CreateSession 0x8f)) rfl rfl hp ?_
  rw [hi, h]
  exact .negative (code := 0x8f) (rest := [])

end Demo

end Cifs
