import Verif.Model.Applets
import Verif.Props.Exchange
import Verif.Props.APDUWorld
import Verif.Props.RSA
import Verif.Props.Keys
/-! C83: an applet's status words for every command. C84: the RSA applet of the tests, for every session. -/
namespace Verif.Props
open Verif.Py Verif.Model Verif.Spec Verif.Model.APDU

/-! ### Lemmas -/

theorem get_take (l : List Int) (hdr : List Int) (n i : Nat) (h : l.take n = hdr) (hi : i < hdr.length) : get l (i : Int) = .ok hdr[i] := by
  subst h
  have : i < l.length := by simp at hi; omega
  rw [get_natCast _ _ this]
  simp

/-- What the constructor makes of a short command, with the public buffer holding the header. -/
theorem short_start {hdr data bytes : List Int} {ne : Option Nat} (h : ShortCmd hdr data ne bytes) :
    ∃ a, APDU.init bytes = .ok a ∧ a.raw = bytes ∧ a.buffer.length = 257 ∧ a.buffer.take 4 = hdr ∧ a.state = 0 ∧ a.outgoinglength = 0 ∧
      a.Ne = ne.map (fun n : Nat => (n : Int)) ∧
      ∃ t a1, a.setIncomingAndReceive = (.ok t, a1) ∧ 1 ≤ a1.state ∧ a1.state < 3 ∧ a1.Ne = a.Ne ∧ a1.buffer.length = 257 ∧
        (data ≠ [] → data.length ≤ 128 → t = data.length ∧ range a1.buffer 5 data.length = data) := by
  have e := short_built h
  obtain ⟨a, ha, _, _, hne, _, hcd, hst, hbl, hbt, r, hr⟩ := C21_short h
  refine ⟨a, ha, init_raw _ _ ha, hbl, hbt, hst, ?_, hne, ?_⟩
  · rw [ha] at e; injection e with e; rw [e]; rfl
  · have hbr : a.broken = false := by
      rw [ha] at e; injection e with e; rw [e]; rfl
    by_cases hd : data = []
    · have hs := setIncoming_recv a
      rw [if_neg (show ¬ (a.state ≠ STATE_INITIAL) by rw [show a.state = 0 from hst]; simp [STATE_INITIAL]), if_neg (by simp [hbr])] at hs
      rw [hs] at hr ⊢
      have hb0 : a.blockLen = 0 := by
        show rangeLen (min IN_BLOCKSIZE _) = 0
        rw [ha] at e; injection e with e
        have hl := (shortCmd_length h).2
        rw [e]
        subst hd
        simp only [built, leBytes]
        unfold IN_BLOCKSIZE rangeLen
        cases ne with
        | none => simp at hl ⊢; omega
        | some n => simp at hl ⊢; omega
      unfold APDU.recv
      have eb : rangeLen a.toBeProcessed = 0 := hb0
      simp only [eb, copyRange]
      refine ⟨_, _, rfl, ?_, ?_, rfl, hbl, fun h => absurd hd h⟩ <;> simp only [STATE_FULL_INCOMING, STATE_PARTIAL_INCOMING] <;> split <;> omega
    · obtain ⟨a', base, ha', hrc, hst', hbr', hcd', hb7, hpos⟩ := accepted_recv (.short h hd)
      rw [ha] at ha'; injection ha' with ha'; subst ha'
      obtain ⟨a1, e1, hr1, hst1, hbuf, hsame⟩ := hrc.recv' base (by omega)
      have hb5 : base = 5 := by omega
      subst hb5
      have e2 : a.setIncomingAndReceive = (.ok ((min 128 (data.length - 0) : Nat) : Int), a1) := by
        rw [setIncoming_recv, if_neg (show ¬ (a.state ≠ STATE_INITIAL) by simp [hst', STATE_INITIAL]), if_neg (by simp [hbr])]
        have : a.offsetincoming = ((5 : Nat) : Int) := hrc.off
        rw [this]; exact e1
      refine ⟨_, a1, e2, by rw [hst1]; split <;> omega, by rw [hst1]; split <;> omega, hsame.2.1, hr1.buf, ?_⟩
      intro _ h128
      refine ⟨by congr 1; omega, ?_⟩
      have hm : min 128 (data.length - 0) = data.length := by omega
      rw [hbuf, hm, List.drop_zero, List.take_length]
      have := range_splice a.buffer 5 0 [] data (by simp [range]) rfl (by rw [hbl]; omega)
      simpa using this

theorem response_sent (a : APDU) (d : List Int) (o l : Nat) (h : o + l ≤ d.length) :
    (sentState { a with state := 4, cur := some 0, outgoinglength := (l : Int) } 0 d o l).response = range d o l := by
  have hbl : (range d o l).length = l := by simp [range]; omega
  unfold APDU.response
  simp only [sentState, Int.zero_add]
  have e0 := setSlice_add a.raw 0 l (range d o l) (by omega)
  simp only [Int.natCast_zero, Int.zero_add, List.take_zero, List.nil_append, Nat.zero_add] at e0
  rw [slice_add]
  have : List.take l (List.drop o d) = range d o l := rfl
  rw [this, e0, sliceTo_natCast]
  have := List.take_left (l₁ := range d o l) (l₂ := List.drop l a.raw)
  rw [hbl] at this
  exact this

theorem choice1_result (a a1 : APDU) (t : Int) (h : a.setIncomingAndReceive = (.ok t, a1)) (hs : a1.state < 3) (hb : a1.buffer.length = 257) :
    (∀ n, a1.Ne = some n → n < 3 → (BaseProcessApplet.choice1 a).1 = .error (.apdu 0)) ∧
    ((∀ n, a1.Ne = some n → 3 ≤ n) → ∃ b, BaseProcessApplet.choice1 a = (.ok (), b) ∧ b.response = [55, 77, 99]) := by
  have e : BaseProcessApplet.choice1 a = setOutgoingAndSend { a1 with buffer := ((a1.buffer.set 0 55).set 1 77).set 2 99 } 0 3 := by
    unfold BaseProcessApplet.choice1
    rw [h]
    simp only [APDU.poke]
    rw [show (0 : Int) = ((0 : Nat) : Int) from rfl, set_natCast _ _ _ (by omega)]
    simp only
    rw [show (1 : Int) = ((1 : Nat) : Int) from rfl, set_natCast _ _ _ (by simp; omega)]
    simp only
    rw [show (2 : Int) = ((2 : Nat) : Int) from rfl, set_natCast _ _ _ (by simp; omega)]
  rw [e]
  have hr : range (((a1.buffer.set 0 55).set 1 77).set 2 99) 0 3 = [55, 77, 99] := by
    match hbb : a1.buffer, hb with
    | x :: y :: z :: w, _ => simp [range]
    | [], hb => simp at hb
    | [_], hb => simp at hb
    | [_, _], hb => simp at hb
  rcases setOutgoingAndSend_cases { a1 with buffer := ((a1.buffer.set 0 55).set 1 77).set 2 99 } 0 3 with ⟨h', _⟩ | ⟨_, ⟨⟨ne, h1, h2⟩, e⟩ | ⟨h3, ⟨h', _⟩ | ⟨_, e⟩⟩⟩
  · have h' : 3 ≤ a1.state := h'
    omega
  · rw [e]
    refine ⟨fun n hn hlt => rfl, fun hall => ?_⟩
    have := hall ne h1
    omega
  · omega
  · rw [e]
    refine ⟨fun n hn hlt => ?_, fun _ => ⟨_, rfl, ?_⟩⟩
    · have := h3 n hn
      omega
    · exact (response_sent _ _ 0 3 (by simp; omega)).trans hr

/-! ### C83 -/

/-- C83. The answer of the applet to every short command: `cla` is the class byte, written signed or unsigned. -/
theorem C83_status_words {cla ins p1 p2 : Int} {data bytes : List Int} {ne : Option Nat} (h : ShortCmd [cla, ins, p1, p2] data ne bytes)
    (c : Nat) (hc : Spells cla c) :
    exchange (BaseProcessApplet.process (some false)) bytes =
      (if c < 128 then .ok [0x6E, 0x00]
       else if ins = 56 ∨ ins = 42 then .ok [0x90, 0x00]
       else if ins ≠ 8 then .ok [0x6D, 0x00]
       else if ne = some 1 ∨ ne = some 2 then .error (.apdu 0)
       else .ok [55, 77, 99, 0x90, 0x00]) ∧
    exchange (BaseProcessApplet.process (some true)) bytes = .ok [0x90, 0x00] ∧
    exchange (BaseProcessApplet.process none) bytes = .error .attributeError := by
  obtain ⟨a, ha, hraw, hbl, hbt, hst, hol, hne, t, a1, hs, hs1, hs3, hne1, hb1, _⟩ := short_start h
  have hcla : a.raw[0]? = some cla := by
    obtain ⟨_, lcf, lef, _, _, hb⟩ := h
    rw [hraw, hb]; rfl
  have hins : get a.buffer 1 = .ok ins := get_take a.buffer _ 4 1 hbt (by simp)
  have hiso : a.isISOInterindustryCLA = .ok (decide (c < 128)) := by
    rw [(cla_queries a cla c hcla hc).1]
    congr 1
    rw [decide_eq_decide]
    obtain ⟨_, _⟩ := hc
    unfold bit
    constructor <;> intro <;> omega
  have hempty : a.response = [] := by
    unfold APDU.response
    rw [hol, show (0 : Int) = ((0 : Nat) : Int) from rfl, sliceTo_natCast]
    rfl
  refine ⟨?_, ?_, ?_⟩
  · unfold exchange BaseProcessApplet.process Applet.selectingApplet
    rw [ha]
    simp only
    rw [hiso]
    by_cases hc8 : c < 128
    · rw [decide_eq_true hc8, if_pos hc8]
      rfl
    · rw [decide_eq_false hc8, if_neg hc8]
      simp only
      rw [hins]
      simp only
      by_cases h8 : ins = 8
      · subst h8
        simp only [if_true, show ¬ ((8 : Int) = 56 ∨ (8 : Int) = 42) by decide, if_false, ne_eq, not_true_eq_false]
        obtain ⟨c1, c2⟩ := choice1_result a a1 t hs hs3 hb1
        by_cases hsmall : ne = some 1 ∨ ne = some 2
        · rw [if_pos hsmall]
          have : (BaseProcessApplet.choice1 a).1 = .error (.apdu 0) := by
            rcases hsmall with rfl | rfl
            · exact c1 1 (by rw [hne1, hne]; rfl) (by decide)
            · exact c1 2 (by rw [hne1, hne]; rfl) (by decide)
          revert this
          generalize BaseProcessApplet.choice1 a = r
          obtain ⟨r1, r2⟩ := r
          rintro rfl
          rfl
        · rw [if_neg hsmall]
          obtain ⟨b, hb, hr⟩ := c2 (by
            intro n hn
            rw [hne1, hne] at hn
            cases ne with
            | none => cases hn
            | some m =>
              change some (m : Int) = some n at hn
              injection hn with hn
              have hm : 1 ≤ m := by
                obtain ⟨_, lcf, lef, _, hle, _⟩ := h
                rcases hle with ⟨hh, _⟩ | ⟨k, hk, h1, _⟩
                · cases hh
                · injection hk with hk; omega
              have : m ≠ 1 ∧ m ≠ 2 := ⟨fun e => hsmall (.inl (by rw [e])), fun e => hsmall (.inr (by rw [e]))⟩
              omega)
          rw [hb]
          simp only
          rw [hr]
          rfl
      · rw [if_neg h8]
        by_cases h5 : ins = 56 ∨ ins = 42
        · rw [if_pos h5]
          rcases h5 with rfl | rfl
          · simp only [if_true]; rw [hempty]; rfl
          · simp only [if_true, show ¬ ((42 : Int) = 56) by decide, if_false]; rw [hempty]; rfl
        · rw [if_neg h5, if_neg (fun e => h5 (.inl e)), if_neg (fun e => h5 (.inr e))]
          simp only [ne_eq, h8, not_false_eq_true, if_true]
          rfl
  · unfold exchange BaseProcessApplet.process Applet.selectingApplet
    rw [ha]
    simp only
    rw [hempty]
    rfl
  · unfold exchange BaseProcessApplet.process Applet.selectingApplet
    rw [ha]

/-- C83. A command of fewer than four bytes never reaches the applet, whatever its code: APDUException(BAD_LENGTH). -/
theorem C83_too_short (process : APDU → Res APDU Unit) (bytes : List Int) (h : bytes.length < 4) : exchange process bytes = .error (.apdu 0) := by
  unfold exchange
  rw [C23_too_short _ h]

/-- What the terminal gets when `process` raises `e`: the two bytes of the reason of an ISOException, no answer at all for another exception. -/
def Answers (e : Err) (r : Except Err (List Int)) : Prop :=
  (∀ hi lo : Nat, lo < 256 → e = .iso (256 * hi + lo) → r = .ok [(hi : Int), (lo : Int)]) ∧ ((∀ sw, e ≠ .iso sw) → r = .error e)

/-- C83. Whatever the applet's code: when `process` raises an ISOException the terminal gets the two bytes of its reason, when it raises anything else
the exception escapes. -/
theorem C83_exception (process : APDU → Res APDU Unit) (bytes : List Int) (a a' : APDU) (e : Err) (h : APDU.init bytes = .ok a)
    (hp : process a = (.error e, a')) : Answers e (exchange process bytes) := by
  unfold exchange
  rw [h]
  simp only [hp]
  refine ⟨?_, ?_⟩
  · rintro hi lo hl rfl
    simp only [Except.ok.injEq, List.cons.injEq, and_true]
    omega
  · intro hn
    split
    · rename_i hk; cases hk
    · rename_i sw _ hk; injection hk with hk; injection hk with hk; exact absurd hk (hn sw)
    · rename_i hk; injection hk with hk; injection hk with hk; rw [hk]

example : (APDU.init [-128, 1, 0, 0]).map (fun a => (BaseProcessApplet.process (some false) a).1) = .ok (.error (.iso 0x6D00)) := by decide +kernel

/-- C83. An applet class that does not define them: `select` accepts, it is not being reselected, and `install` is not implemented. -/
theorem C83_defaults : Applet.select = true ∧ Applet.reSelectingApplet = false ∧ Applet.install = .error .notImplemented := ⟨rfl, rfl, rfl⟩

/-- C83. An applet class that does not define `process` raises NotImplementedError on every command that reaches it. -/
theorem C83_default (bytes : List Int) (a : APDU) (h : APDU.init bytes = .ok a) : exchange Applet.process bytes = .error .notImplemented := by
  unfold exchange
  rw [h]
  rfl

example : ShortCmd [-128, 8, 0, 0] [] (some 256) [-128, 8, 0, 0, 0] ∧ Spells (-128) 128 ∧
    exchange (BaseProcessApplet.process (some false)) [-128, 8, 0, 0, 0] = .ok [55, 77, 99, 0x90, 0x00] :=
  ⟨⟨rfl, [], [0], .inl ⟨rfl, rfl⟩, .inr ⟨256, rfl, by omega, by omega, 0, rfl, by simp [Spells]⟩, rfl⟩, by simp [Spells], by decide +kernel⟩

/-! ### C84 -/

/-- What the applet is after installation with the generated key `t`, and stays in every session. -/
def Holds (t : TheKey) (app : RSAApplet) : Prop :=
  app.cipher.base.algorithm = 10 ∧
  ∃ pub priv, app.heap 0 = .rsa pub ∧ app.heap 1 = .rsa priv ∧ pub.initialized = true ∧ priv.initialized = true ∧
    pub.isPublic = true ∧ priv.isPublic = false ∧ pub.size = 1024 ∧ priv.size = 1024 ∧
    pub.theKey = some (.given t) ∧ priv.theKey = some (.given t)

theorem install_holds (ls : Bool) (generate : Int → TheKey) (bArray : List Int) (bOffset : Int) (app : RSAApplet)
    (h : RSAApplet.install true ls generate bArray bOffset = .ok app) : Holds (generate 1024) app := by
  unfold RSAApplet.install at h
  obtain ⟨p', hg, h1, h2, h3, h4, h5, h6, _⟩ := C54_genKeyPair ls generate generate 1 1024 _ (show KeyPair.new 1 1024 = .ok _ from rfl)
  have hg' := hg
  rw [show KeyPair.new 1 1024 = .ok _ from rfl] at h
  simp only at h
  rw [hg] at h
  simp only at h
  cases hget : get bArray bOffset with
  | error e => rw [hget] at h; cases h
  | ok v =>
    rw [hget] at h
    have h : (Except.ok (⟨fun r => if r = 0 then .rsa p'.publicKey else .rsa p'.privateKey, ⟨CipherBase.new 10, none⟩⟩ : RSAApplet) : Except Err RSAApplet) = .ok app := h
    injection h with h
    subst h
    have e : p' = (KeyPair.genKeyPair true ls generate ⟨some 1, some 1024, RSAKey.new true 1024, RSAKey.new false 1024⟩).2 := by rw [hg']
    refine ⟨rfl, p'.publicKey, p'.privateKey, rfl, rfl, h1, h2, ?_, ?_, h3, h4, h5, h6⟩
    · rw [e]; rfl
    · rw [e]; rfl

theorem rsa_init_algorithm (heap : KeyHeap) (c : RSACipher) (k : KeyArg) (m : Int) : (c.init heap k m).2.base.algorithm = c.base.algorithm := by
  unfold RSACipher.init CipherBase.init
  cases k with
  | notKey => rfl
  | key r =>
    simp only
    by_cases h1 : (heap r).isInitialized
    · by_cases h2 : m = MODE_ENCRYPT ∨ m = MODE_DECRYPT
      · simp only [h1, not_true_eq_false, if_false, h2]
        cases heap r <;> rfl
      · simp only [h1, not_true_eq_false, if_false, h2, not_false_eq_true, if_true]
    · rw [if_pos h1]

theorem rsa_init_ready (heap : KeyHeap) (c : RSACipher) (mode : Int) (r : Nat) (k : RSAKey) (h : KeyHandle) (hm : mode = 1 ∨ mode = 2)
    (hk : heap r = .rsa k) (hi : k.initialized = true) (ht : k.theKey = some h) :
    (c.init heap (.key r) mode).1 = .ok () ∧ RSAReady heap (c.init heap (.key r) mode).2 c.base.algorithm mode k.isPublic k.size h := by
  have hi : (KeyObj.rsa k).isInitialized = true := hi
  have hm : mode = MODE_ENCRYPT ∨ mode = MODE_DECRYPT := by unfold MODE_ENCRYPT MODE_DECRYPT; omega
  refine ⟨by simp [RSACipher.init, CipherBase.init, hi, hm, hk], ?_⟩
  refine ⟨by simp [RSACipher.init, CipherBase.init, hi, hm, hk], by simp [RSACipher.init, CipherBase.init, hi, hm, hk],
    by simp [RSACipher.init, CipherBase.init, hi, hm, hk], r, k, by simp [RSACipher.init, CipherBase.init, hi, hm, hk], hk, rfl, rfl, ht⟩

theorem cipherRSA_holds {t : TheKey} {app : RSAApplet} (h : Holds t app) (ops : RSAOps) (ls : Bool) (rnd : List Nat) (a : APDU) (enc : Bool)
    (r : Except Err Unit) (a' : APDU) (app' : RSAApplet) (he : app.cipherRSA ops ls rnd a enc = some (r, a', app')) : Holds t app' := by
  unfold RSAApplet.cipherRSA at he
  obtain ⟨ha, hk⟩ := h
  have hi := rsa_init_algorithm app.heap app.cipher (.key (if enc then 0 else 1)) (if enc then 2 else 1)
  rw [ha] at hi
  split at he
  · injection he with he; injection he with _ he; injection he with _ he; subst he; exact ⟨ha, hk⟩
  · split at he
    · injection he with he; injection he with _ he; injection he with _ he; subst he; exact ⟨ha, hk⟩
    · split at he
      · rename_i e c hc
        rw [hc] at hi
        injection he with he; injection he with _ he; injection he with _ he; subst he; exact ⟨hi, hk⟩
      · rename_i c hc
        rw [hc] at hi
        split at he
        · cases he
        · injection he with he; injection he with _ he; injection he with _ he; subst he; exact ⟨hi, hk⟩
        · injection he with he; injection he with _ he; injection he with _ he; subst he; exact ⟨hi, hk⟩

theorem process_holds {t : TheKey} {app : RSAApplet} (h : Holds t app) (ops : RSAOps) (ls : Bool) (rnd : List Nat) (sel : Option Bool) (a : APDU)
    (r : Except Err Unit) (a' : APDU) (app' : RSAApplet) (he : app.process ops ls rnd sel a = some (r, a', app')) : Holds t app' := by
  unfold RSAApplet.process at he
  have same : ∀ {x : Except Err Unit} {y : APDU}, some (x, y, app) = some (r, a', app') → Holds t app' := by
    intro x y he
    injection he with he; injection he with _ he; injection he with _ he; subst he; exact h
  split at he
  · exact same he
  · exact same he
  · split at he
    · exact same he
    · split at he
      · exact same he
      · split at he
        · exact same he
        · split at he
          · exact same he
          · split at he
            · exact same he
            · split at he
              · obtain ⟨x, hx, he⟩ := Option.map_eq_some_iff.mp he
                obtain ⟨x1, x2, x3⟩ := x
                have := cipherRSA_holds h ops ls rnd _ _ _ _ _ hx
                have e3 : (RSAApplet.catchKeyError (x1, x2, x3)).2.2 = x3 := by
                  unfold RSAApplet.catchKeyError
                  split
                  · rename_i hk; injection hk with _ hk; injection hk with _ hk; exact hk.symm
                  · rfl
                rw [he] at e3
                have e3 : app' = x3 := e3
                rw [e3]; exact this
              · exact same he

theorem command_holds {t : TheKey} {app : RSAApplet} (h : Holds t app) (ops : RSAOps) (ls : Bool) (rnd : List Nat) (sel : Option Bool)
    (bytes : List Int) (r : Except Err (List Int)) (app' : RSAApplet) (he : app.command ops ls rnd sel bytes = some (r, app')) : Holds t app' := by
  unfold RSAApplet.command at he
  split at he
  · injection he with he; injection he with _ he; subst he; exact h
  · obtain ⟨x, hx, he⟩ := Option.map_eq_some_iff.mp he
    obtain ⟨x1, x2, x3⟩ := x
    have := process_holds h ops ls rnd _ _ _ _ _ hx
    have e3 : (RSAApplet.respond (x1, x2, x3)).2 = x3 := by
      unfold RSAApplet.respond
      split <;> (rename_i hk; injection hk with _ hk; injection hk with _ hk; exact hk.symm)
    rw [he] at e3
    have e3 : app' = x3 := e3
    rw [e3]; exact this

theorem session_holds {t : TheKey} (ops : RSAOps) (ls : Bool) (cs : List (List Nat × Option Bool × List Int)) :
    ∀ (app : RSAApplet), Holds t app → ∀ app', app.session ops ls cs = some app' → Holds t app' := by
  induction cs with
  | nil => intro app h app' he; injection he with he; subst he; exact h
  | cons c cs ih =>
    intro app h app' he
    obtain ⟨rnd, sel, bytes⟩ := c
    unfold RSAApplet.session at he
    split at he
    · cases he
    · rename_i r app1 hc
      exact ih app1 (command_holds h ops ls rnd sel bytes r app1 hc) app' he

/-- The last three calls of both actions. -/
theorem answer_response (a : APDU) (n : Nat) (hs : a.state < 3) (hb : 5 + n ≤ a.buffer.length) (hn : n ≤ 256) :
    (∀ ne, a.Ne = some ne → ne < n → (RSAApplet.answer a n).1 = .error (.apdu 0)) ∧
    ((∀ ne, a.Ne = some ne → (n : Int) ≤ ne) → ∃ b, RSAApplet.answer a n = (.ok (), b) ∧ b.response = range a.buffer 5 n) := by
  unfold RSAApplet.answer
  rcases setOutgoing_cases a with ⟨h, _⟩ | ⟨_, e⟩
  · omega
  rw [e]
  simp only
  rcases setOutgoingLength_cases { a with state := 3, cur := some 0, outgoinglength := a.getOutgoingLength } n with
    ⟨h, _⟩ | ⟨_, ⟨ne, h1, h2⟩, e⟩ | ⟨_, h3, e⟩
  · simp at h
  · rw [e]
    refine ⟨fun n hn hlt => rfl, fun hall => ?_⟩
    have := hall ne h1
    omega
  · rw [e]
    simp only
    rw [sendBytesLong_eq]
    rcases sendFrom_cases { a with state := 4, cur := some 0, outgoinglength := (n : Int) } a.buffer 5 n with ⟨h, _⟩ | ⟨c, h, hc, _⟩ | ⟨c, h, hc, e⟩
    · simp at h
    · simp at h; omega
    · simp at h
      subst h
      refine ⟨fun ne hne hlt => ?_, fun _ => ?_⟩
      · have := h3 ne hne; omega
      · refine ⟨_, e, response_sent a a.buffer 5 n hb⟩

theorem applet_written_range {old new : List Int} {off : Nat} {vs : List Int} (h : Written old new off vs) : range new off vs.length = vs := by
  obtain ⟨h1, h2, h3, _⟩ := h
  apply List.ext_getElem?
  intro i
  unfold range
  by_cases hi : i < vs.length
  · rw [List.getElem?_take_of_lt hi, List.getElem?_drop, h3 i hi, List.getElem?_eq_getElem hi]
  · rw [List.getElem?_eq_none (by simp; omega), List.getElem?_eq_none (by omega)]

/-- A command with a valid instruction: what it answers is decided by `doFinal`. -/
theorem command_action {t : TheKey} {app : RSAApplet} (hh : Holds t app) (ops : RSAOps) (ls : Bool) (rnd : List Nat) (enc : Bool)
    {p2 : Int} {data bytes : List Int} {ne : Option Nat} (h : ShortCmd [0, 0xAA, if enc then 1 else 2, p2] data ne bytes)
    (hd : data ≠ []) (h128 : data.length ≤ 128) :
    ∃ (c : RSACipher) (buf : List Int), RSAReady app.heap c 10 (if enc then 2 else 1) enc 1024 (.given t) ∧ buf.length = 257 ∧ range buf 5 data.length = data ∧
      (∀ ct out, c.doFinal app.heap ops ls rnd buf ((5 : Nat) : Int) data.length buf ((5 : Nat) : Int) = some (.ok (ct.length : Int), out) →
        Written buf out 5 ct → ct.length ≤ 128 → (∀ n, ne = some n → ct.length ≤ n) →
        ∃ app', app.command ops ls rnd (some false) bytes = some (.ok (ct ++ [0x90, 0x00]), app')) ∧
      (∀ e out, c.doFinal app.heap ops ls rnd buf ((5 : Nat) : Int) data.length buf ((5 : Nat) : Int) = some (.error e, out) → (∀ sw, e ≠ .iso sw) → e ≠ .keyError →
        ∃ app', app.command ops ls rnd (some false) bytes = some (.error e, app')) ∧
      (∀ e out, c.doFinal app.heap ops ls rnd buf ((5 : Nat) : Int) data.length buf ((5 : Nat) : Int) = some (.error e, out) →
        ∃ r app', app.command ops ls rnd (some false) bytes = some (r, app') ∧ (if e = .keyError then r = .ok [0x6B, 0x00] else Answers e r)) := by
  obtain ⟨a, ha, hraw, hbl, hbt, hst, hol, hne, tt, a1, hs, hs1, hs3, hne1, hb1, hdat⟩ := short_start h
  obtain ⟨rfl, hrange⟩ := hdat hd h128
  obtain ⟨halg, pub, priv, k0, k1, i0, i1, b0, b1, z0, z1, t0, t1⟩ := hh
  have hready : (app.cipher.init app.heap (.key (if enc then 0 else 1)) (if enc then 2 else 1)).1 = .ok () ∧
      RSAReady app.heap (app.cipher.init app.heap (.key (if enc then 0 else 1)) (if enc then 2 else 1)).2 10 (if enc then 2 else 1) enc 1024 (.given t) := by
    cases enc with
    | true =>
      have := rsa_init_ready app.heap app.cipher 2 0 pub (.given t) (.inr rfl) k0 i0 t0
      rw [halg, b0, z0] at this
      exact this
    | false =>
      have := rsa_init_ready app.heap app.cipher 1 1 priv (.given t) (.inl rfl) k1 i1 t1
      rw [halg, b1, z1] at this
      exact this
  obtain ⟨hi1, hi2⟩ := hready
  revert hi1 hi2
  generalize hci : app.cipher.init app.heap (.key (if enc then 0 else 1)) (if enc then 2 else 1) = ci
  obtain ⟨cr, c⟩ := ci
  intro hi1 hi2
  simp only at hi1 hi2
  subst hi1
  have h0 : get a.buffer 0 = .ok 0 := get_take a.buffer _ 4 0 hbt (by simp)
  have h1 : get a.buffer 1 = .ok 0xAA := get_take a.buffer _ 4 1 hbt (by simp)
  have h2 : get a.buffer 2 = .ok (if enc then 1 else 2) := get_take a.buffer _ 4 2 hbt (by simp)
  have hass : ¬ (enc = true ∧ ¬ (app.heap 1).isInitialized = true) := by
    rw [k1]
    rintro ⟨_, hh⟩
    exact hh i1
  have hdec : decide ((if enc then (1 : Int) else 2) = 1) = enc := by cases enc <;> rfl
  have hp1 : (if enc then (1 : Int) else 2) = 1 ∨ (if enc then (1 : Int) else 2) = 2 := by cases enc <;> simp
  have hcmd : app.command ops ls rnd (some false) bytes =
      (app.cipherRSA ops ls rnd a enc).map (fun r => RSAApplet.respond (RSAApplet.catchKeyError r)) := by
    unfold RSAApplet.command RSAApplet.process Applet.selectingApplet
    rw [ha]
    simp only
    rw [h0]
    simp only [ne_eq, not_true_eq_false, if_false]
    rw [h1]
    simp only [ne_eq, not_true_eq_false, if_false]
    rw [h2]
    simp only
    rw [if_pos hp1, hdec, Option.map_map]
    rfl
  have hact : app.cipherRSA ops ls rnd a enc =
      match c.doFinal app.heap ops ls rnd a1.buffer 5 data.length a1.buffer 5 with
      | none => none
      | some (.error e, buf) => some (.error e, { a1 with buffer := buf }, ⟨app.heap, c⟩)
      | some (.ok n, buf) =>
        match RSAApplet.answer { a1 with buffer := buf } n with
        | (r, a) => some (r, a, ⟨app.heap, c⟩) := by
    unfold RSAApplet.cipherRSA
    rw [hs]
    simp only
    rw [if_neg hass, hci]
    rfl
  refine ⟨c, a1.buffer, hi2, hb1, hrange, ?_, ?_, ?_⟩
  · intro ct out hf hw hl hnn
    have hlen : out.length = 257 := by rw [hw.2.1, hb1]
    obtain ⟨_, ans⟩ := answer_response { a1 with buffer := out } ct.length hs3 (by simp only; omega) (by omega)
    obtain ⟨b, hb, hr⟩ := ans (by
      intro n hn
      have hn : a1.Ne = some n := hn
      rw [hne1, hne] at hn
      cases ne with
      | none => cases hn
      | some m =>
        change some (m : Int) = some n at hn
        injection hn with hn
        have := hnn m rfl
        omega)
    refine ⟨⟨app.heap, c⟩, ?_⟩
    rw [hcmd, hact, show (5 : Int) = ((5 : Nat) : Int) from rfl, hf]
    simp only
    rw [hb]
    show some ((Except.ok (b.response ++ [0x90, 0x00]) : Except Err (List Int)), _) = _
    rw [hr]
    simp only
    rw [applet_written_range hw]
  · intro e out hf hiso hkey
    refine ⟨⟨app.heap, c⟩, ?_⟩
    rw [hcmd, hact, show (5 : Int) = ((5 : Nat) : Int) from rfl, hf]
    simp only [Option.map_some]
    congr 1
    have hk : ∀ x, RSAApplet.catchKeyError (.error e, x) = (.error e, x) := by
      intro x
      unfold RSAApplet.catchKeyError
      split
      · rename_i hk; injection hk with hk; injection hk with hk; exact absurd hk hkey
      · rfl
    rw [hk]
    unfold RSAApplet.respond
    split
    · rename_i hk; cases hk
    · rename_i sw _ _ hk; injection hk with hk; injection hk with hk; exact absurd hk (hiso sw)
    · rename_i hk; injection hk with hk1 hk2; injection hk1 with hk1; injection hk2 with _ hk2; rw [hk1, hk2]
  · intro e out hf
    refine ⟨_, _, by rw [hcmd, hact, show (5 : Int) = ((5 : Nat) : Int) from rfl, hf]; rfl, ?_⟩
    by_cases hk : e = .keyError
    · subst hk
      simp only [if_true]
      rfl
    · have hc : ∀ x, RSAApplet.catchKeyError (.error e, x) = (.error e, x) := by
        intro x
        unfold RSAApplet.catchKeyError
        split
        · rename_i hk'; injection hk' with hk'; injection hk' with hk'; exact absurd hk' hk
        · rfl
      simp only [if_neg hk]
      refine ⟨?_, ?_⟩
      · rintro hi lo hl rfl
        simp only [hc, Except.ok.injEq, List.cons.injEq, and_true]
        omega
      · intro hn
        simp only [hc]

theorem arrayToLong_unsigned_lt (l : List Int) (h : Unsigned l) : arrayToLong l < 256 ^ l.length := by
  induction l with
  | nil => decide
  | cons x xs ih =>
    have := ih (fun y hy => h y (by simp [hy]))
    have hx := h x (by simp)
    rw [arrayToLong_cons, List.length_cons, Int.pow_succ]
    omega

/-- The number the block stands for (its last byte is the most significant one) is below `(last byte + 1)·256^127`. -/
theorem block_below (k : Int) (M B : List Int) (h : IsPKCS1Block k M B) (hM : M ≠ []) (hu : Unsigned M) :
    arrayToLong B < (M.getLast hM + 1) * 256 ^ (B.length - 1) := by
  obtain ⟨PS, rfl, _, hPS, _⟩ := h
  have e : (0 : Int) :: 2 :: (PS ++ 0 :: M) = (0 :: 2 :: (PS ++ 0 :: M.dropLast)) ++ [M.getLast hM] := by
    conv => lhs; rw [← List.dropLast_concat_getLast hM]
    simp
  have hU : Unsigned (0 :: 2 :: (PS ++ 0 :: M.dropLast)) := by
    intro x hx
    simp only [List.mem_cons, List.mem_append] at hx
    rcases hx with rfl | rfl | hx | rfl | hx
    · omega
    · omega
    · have := hPS x hx; omega
    · omega
    · exact hu x (List.dropLast_subset _ hx)
  rw [e, arrayToLong_append, List.length_append, List.length_cons (as := ([] : List Int)), List.length_nil, Nat.zero_add, Nat.add_sub_cancel]
  have hlt := arrayToLong_unsigned_lt _ hU
  have h1 : arrayToLong [M.getLast hM] = M.getLast hM := by
    rw [arrayToLong_cons, arrayToLong_nil]; omega
  rw [h1, Int.add_mul, Int.mul_comm]
  omega

/-- C84. Python 2. Install the applet and send it any commands. Then a command 00 AA 01 with a message of 1 to 117 unsigned bytes is
answered with a ciphertext of at most 128 bytes and 90 00, and, after any further commands, 00 AA 02 with the ciphertext, completed to 128 bytes
with zeros, is answered with the message and 90 00. The RSA operations are arbitrary functions that invert each other below the
modulus `N`; the message must not end in a zero byte, and its last byte must be below the leading byte of the modulus. -/
theorem C84_roundtrip (generate : Int → TheKey) (bArray : List Int) (bOffset : Int) (app0 app : RSAApplet) (ops : RSAOps)
    (hinst : RSAApplet.install true true generate bArray bOffset = .ok app0)
    (cs : List (List Nat × Option Bool × List Int)) (hsess : app0.session ops true cs = some app)
    (N : Nat) (hinv : Inverts ops N (.given (generate 1024)) (.given (generate 1024))) (hN : N ≤ 256 ^ 128)
    (M : List Int) (hM : M ≠ []) (h117 : M.length ≤ 117) (hu : Unsigned M) (hlast : M.getLast hM ≠ 0) (htop : (M.getLast hM + 1) * 256 ^ 127 ≤ (N : Int))
    (p2 : Int) (ne : Option Nat) (bytes : List Int) (h : ShortCmd [0, 0xAA, 1, p2] M ne bytes) (hne : ∀ n, ne = some n → 128 ≤ n)
    (rnd : List Nat) (hrnd : ∀ b ∈ rnd, b < 256) (hcount : 125 ≤ M.length + rnd.countP (· ≠ 0)) :
    ∃ ct app1, app.command ops true rnd (some false) bytes = some (.ok (ct ++ [0x90, 0x00]), app1) ∧ ct.length ≤ 128 ∧ Unsigned ct ∧
      ∀ cs' app2, app1.session ops true cs' = some app2 →
        ∀ p2' ne' bytes' rnd', ShortCmd [0, 0xAA, 2, p2'] (ct ++ List.replicate (128 - ct.length) 0) ne' bytes' → (∀ n, ne' = some n → M.length ≤ n) →
          ∃ app3, app2.command ops true rnd' (some false) bytes' = some (.ok (M ++ [0x90, 0x00]), app3) := by
  have hh := session_holds ops true cs app0 (install_holds true generate bArray bOffset app0 hinst) app hsess
  obtain ⟨c, buf, hr, hbuf, hrange, hok, _⟩ := command_action hh ops true rnd true (p2 := p2) (ne := ne) (bytes := bytes) h hM (by omega)
  simp only [if_true] at hr
  have hsz : ((1024 : Int) / 8).toNat = 128 := by decide
  obtain ⟨b1, _, b3⟩ := C63_block rnd hrnd 1024 (range buf 5 M.length) (by rw [hrange]; omega)
  obtain ⟨B, hB⟩ := b3 (by rw [hrange]; omega)
  have hblk := b1 B hB
  rw [hrange] at hblk
  have hBN : arrayToLong B < N := by
    have := block_below _ M B hblk hM hu
    obtain ⟨_, _, _, _, hl⟩ := hblk
    have hl : (B.length : Int) = 128 := hl
    rw [show B.length - 1 = 127 by omega] at this
    omega
  have key : ∀ (heap' : KeyHeap) (c' : RSACipher), RSAReady heap' c' 10 1 false 1024 (.given (generate 1024)) →
      ∀ rnd', _ := fun heap' c' hd rnd' => C64_pkcs1_roundtrip app.heap heap' c c' true 1024 (.given (generate 1024)) (.given (generate 1024)) N hr hd ops hinv
        (by rw [hsz]; exact hN) rnd rnd' hrnd buf buf 5 M.length 5 (by omega) (by rw [hrange]; exact hu) B hB hBN (by rw [hsz]; omega)
  -- some decryption cipher, to have the ciphertext
  obtain ⟨halg, pub, priv, k0, k1, i0, i1, q0, q1, z0, z1, t0, t1⟩ := hh
  have hd0 := rsa_init_ready app.heap app.cipher 1 1 priv (.given (generate 1024)) (.inl rfl) k1 i1 t1
  rw [halg, q1, z1] at hd0
  obtain ⟨ct, out, hf, hw, huct, hctl, _⟩ := key app.heap _ hd0.2 []
  have hct : ct.length ≤ 128 := by
    have : (1024 : Int) / 8 = 128 := by decide
    omega
  obtain ⟨app1, hcmd⟩ := hok ct out hf hw hct (fun n hn => Nat.le_trans hct (hne n hn))
  refine ⟨ct, app1, hcmd, hct, huct, ?_⟩
  intro cs' app2 hs2 p2' ne' bytes' rnd' h' hne'
  have hh1 := command_holds ⟨halg, pub, priv, k0, k1, i0, i1, q0, q1, z0, z1, t0, t1⟩ ops true rnd (some false) bytes _ app1 hcmd
  have hh2 := session_holds ops true cs' app1 hh1 app2 hs2
  have hl128 : (ct ++ List.replicate (128 - ct.length) (0 : Int)).length = 128 := by simp; omega
  have hnil : ct ++ List.replicate (128 - ct.length) (0 : Int) ≠ [] := by
    intro e; rw [e] at hl128; simp at hl128
  obtain ⟨c', buf', hr', hbuf', hrange', hok', _⟩ := command_action hh2 ops true rnd' false (p2 := p2') (ne := ne') (bytes := bytes') h' hnil (by omega)
  simp only [Bool.false_eq_true, if_false] at hr'
  obtain ⟨ct', out', hf', hw', _, _, hall⟩ := key app2.heap c' hr' rnd'
  have hsame : ct' = ct := by
    rw [hf] at hf'
    injection hf' with e; injection e with e1 e2; injection e1 with e1
    have hlen : ct'.length = ct.length := by omega
    rw [← applet_written_range hw', ← applet_written_range hw, e2, hlen]
  subst hsame
  rw [hl128] at hrange' hok'
  have hz : range buf 5 M.length = M ++ List.replicate 0 0 := by rw [hrange]; simp
  obtain ⟨hgood, _⟩ := hall buf' buf' 5 5 (by rw [hsz]; omega) (by rw [hsz]; exact hrange') M 0 hz
    (by rw [List.getLast?_eq_some_getLast hM]; simpa using hlast) (by omega)
  obtain ⟨out2, hf2, hw2⟩ := hgood hM
  exact hok' M out2 hf2 hw2 (by omega) hne'

/-- C84. Python 3: the decryption command always fails, with CryptoException(ILLEGAL_VALUE), on a ciphertext that stands for a padded
message. -/
theorem C84_py3 (generate : Int → TheKey) (bArray : List Int) (bOffset : Int) (app0 app : RSAApplet) (ops : RSAOps)
    (hinst : RSAApplet.install true false generate bArray bOffset = .ok app0)
    (cs : List (List Nat × Option Bool × List Int)) (hsess : app0.session ops false cs = some app)
    (data : List Int) (h128 : data.length = 128) (x : Nat) (hx : ops.dec (.given (generate 1024)) (arrayToLong data) = .ok x)
    (k : Int) (M B : List Int) (hB : IsPKCS1Block k M B) (hxB : (x : Int) = arrayToLong B)
    (p2 : Int) (ne : Option Nat) (bytes : List Int) (h : ShortCmd [0, 0xAA, 2, p2] data ne bytes) (rnd : List Nat) :
    ∃ app1, app.command ops false rnd (some false) bytes = some (.error (.crypto 1), app1) := by
  have hh := session_holds ops false cs app0 (install_holds false generate bArray bOffset app0 hinst) app hsess
  have hnil : data ≠ [] := by intro e; rw [e] at h128; simp at h128
  obtain ⟨c, buf, hr, hbuf, hrange, _, herr, _⟩ := command_action hh ops false rnd false (p2 := p2) (ne := ne) (bytes := bytes) h hnil (by omega)
  simp only [Bool.false_eq_true, if_false] at hr
  exact herr (.crypto 1) buf (C64_py3_pkcs1 app.heap c 1024 _ hr ops rnd buf buf 5 data.length 5 (by omega) x (by rw [hrange]; exact hx) k M B hB hxB)
    (by intro sw h; cases h) (by intro h; cases h)

/-- C84. Lengths: a message of 118 to 128 bytes to encrypt, and anything but 128 bytes to decrypt, is refused with
CryptoException(ILLEGAL_VALUE), which the applet does not turn into a status word. -/
theorem C84_lengths (ls : Bool) (generate : Int → TheKey) (bArray : List Int) (bOffset : Int) (app0 app : RSAApplet) (ops : RSAOps)
    (hinst : RSAApplet.install true ls generate bArray bOffset = .ok app0)
    (cs : List (List Nat × Option Bool × List Int)) (hsess : app0.session ops ls cs = some app)
    (enc : Bool) (data : List Int) (hd : data ≠ []) (h128 : data.length ≤ 128) (hbad : if enc then 118 ≤ data.length else data.length ≠ 128)
    (p2 : Int) (ne : Option Nat) (bytes : List Int) (h : ShortCmd [0, 0xAA, if enc then 1 else 2, p2] data ne bytes) (rnd : List Nat) :
    ∃ app1, app.command ops ls rnd (some false) bytes = some (.error (.crypto 1), app1) := by
  have hh := session_holds ops ls cs app0 (install_holds ls generate bArray bOffset app0 hinst) app hsess
  obtain ⟨c, buf, hr, hbuf, hrange, _, herr, _⟩ := command_action hh ops ls rnd enc (p2 := p2) (ne := ne) (bytes := bytes) h hd h128
  obtain ⟨w1, w2⟩ := C64_wrong_length app.heap c 10 _ enc 1024 _ hr ops ls rnd buf buf 5 data.length 5 (by omega)
  have : c.doFinal app.heap ops ls rnd buf ((5 : Nat) : Int) data.length buf ((5 : Nat) : Int) = some (.error (.crypto 1), buf) := by
    cases enc with
    | true =>
      simp only [if_true] at hbad
      exact w2 ⟨rfl, rfl⟩ (by omega)
    | false =>
      simp only [Bool.false_eq_true, if_false] at hbad
      exact w1 (by simp) (by omega)
  exact herr _ _ this (by intro sw h; cases h) (by intro h; cases h)

/-- C84. What the RSA library raises when a block of 128 bytes is decrypted reaches the terminal as an ISOException's two bytes, KeyError as 6B00;
anything else escapes. -/
theorem C84_library (ls : Bool) (generate : Int → TheKey) (bArray : List Int) (bOffset : Int) (app0 app : RSAApplet) (ops : RSAOps)
    (hinst : RSAApplet.install true ls generate bArray bOffset = .ok app0)
    (cs : List (List Nat × Option Bool × List Int)) (hsess : app0.session ops ls cs = some app)
    (data : List Int) (hl : data.length = 128) (p2 : Int) (ne : Option Nat) (bytes : List Int) (h : ShortCmd [0, 0xAA, 2, p2] data ne bytes) (rnd : List Nat)
    (e : Err) (hlib : ops.dec (.given (generate 1024)) (arrayToLong data) = .error e) :
    ∃ r app1, app.command ops ls rnd (some false) bytes = some (r, app1) ∧ (if e = .keyError then r = .ok [0x6B, 0x00] else Answers e r) := by
  have hh := session_holds ops ls cs app0 (install_holds ls generate bArray bOffset app0 hinst) app hsess
  have hnil : data ≠ [] := by intro hn; rw [hn] at hl; simp at hl
  obtain ⟨c, buf, hr, hbuf, hrange, _, _, hans⟩ := command_action hh ops ls rnd false (p2 := p2) (ne := ne) (bytes := bytes) h hnil (by omega)
  simp only [Bool.false_eq_true, if_false] at hr
  refine hans e buf ?_
  rw [rsa_doFinal hr ops ls rnd buf buf 5 data.length ((5 : Nat) : Int) (by omega), hrange]
  rw [if_neg (show ¬ ((10 : Int) = 10 ∧ (1 : Int) = 2) by decide)]
  simp only
  rw [if_neg (by omega), if_neg (show ¬ ((1 : Int) = 2 ∨ false = true) by decide), hlib]

example : ∃ app0, RSAApplet.install true true (fun _ => ⟨256 ^ 128, 3, 7⟩) [0] 0 = .ok app0 ∧
    ShortCmd [0, 0xAA, 2, 0] (List.replicate 128 1) none ([0, 0xAA, 2, 0, 128] ++ List.replicate 128 1) ∧
    (RSAOps.mk (fun _ _ => .ok 1) (fun _ _ => .error .keyError)).dec (.given ⟨256 ^ 128, 3, 7⟩) (arrayToLong (List.replicate 128 1)) = .error .keyError :=
  ⟨_, rfl, ⟨rfl, [128], [], .inr ⟨by simp, by simp, 128, rfl, by simp [Spells]⟩, .inl ⟨rfl, rfl⟩, rfl⟩, rfl⟩

/-- C84. Dispatch: a class byte other than 0 makes the applet raise NameError, an instruction other than AA (written 0xAA; the signed
byte -86 counts as another instruction) is answered 6D00, a P1 other than 1 and 2 is answered 6B00; while the applet is being selected every command is answered 9000. The applet is unchanged. -/
theorem C84_dispatch (ops : RSAOps) (ls : Bool) (rnd : List Nat) (app : RSAApplet) {cla ins p1 p2 : Int} {data bytes : List Int} {ne : Option Nat}
    (h : ShortCmd [cla, ins, p1, p2] data ne bytes) :
    (cla ≠ 0 → app.command ops ls rnd (some false) bytes = some (.error .nameError, app)) ∧
    (cla = 0 → ins ≠ 0xAA → app.command ops ls rnd (some false) bytes = some (.ok [0x6D, 0x00], app)) ∧
    (cla = 0 → ins = 0xAA → p1 ≠ 1 → p1 ≠ 2 → app.command ops ls rnd (some false) bytes = some (.ok [0x6B, 0x00], app)) ∧
    app.command ops ls rnd (some true) bytes = some (.ok [0x90, 0x00], app) := by
  obtain ⟨a, ha, hraw, hbl, hbt, hst, hol, _⟩ := short_start h
  have h0 : get a.buffer 0 = .ok cla := get_take a.buffer _ 4 0 hbt (by simp)
  have h1 : get a.buffer 1 = .ok ins := get_take a.buffer _ 4 1 hbt (by simp)
  have h2 : get a.buffer 2 = .ok p1 := get_take a.buffer _ 4 2 hbt (by simp)
  have hempty : a.response = [] := by
    unfold APDU.response
    rw [hol, show (0 : Int) = ((0 : Nat) : Int) from rfl, sliceTo_natCast]
    rfl
  unfold RSAApplet.command RSAApplet.process Applet.selectingApplet
  rw [ha]
  simp only
  rw [h0]
  refine ⟨?_, ?_, ?_, ?_⟩
  · intro hc
    simp only [ne_eq, hc, not_false_eq_true, if_true]
    rfl
  · intro hc hi
    simp only [ne_eq, hc, not_true_eq_false, if_false]
    rw [h1]
    simp only [ne_eq, hi, not_false_eq_true, if_true]
    rfl
  · intro hc hi k1 k2
    simp only [ne_eq, hc, not_true_eq_false, if_false]
    rw [h1]
    simp only [ne_eq, hi, not_true_eq_false, if_false]
    rw [h2]
    simp only
    rw [if_neg (by omega)]
    rfl
  · show some ((Except.ok (a.response ++ [0x90, 0x00]) : Except Err (List Int)), app) = _
    rw [hempty]
    rfl

/-! The hypotheses can be met: an installed applet, the toy operations of Props/RSA with a modulus of 128 bytes, and the message of the repository's test. -/
example : ∃ app0, RSAApplet.install true true (fun _ => ⟨256 ^ 128, 3, 7⟩) [0] 0 = .ok app0 ∧
    Inverts (toyOps (256 ^ 128)) (256 ^ 128) (.given ⟨256 ^ 128, 3, 7⟩) (.given ⟨256 ^ 128, 3, 7⟩) ∧
    ShortCmd [0, 0xAA, 1, 0] [0x61, 0x62, 0x63, 0x64] (some 256) [0, 0xAA, 1, 0, 4, 0x61, 0x62, 0x63, 0x64, 0] :=
  ⟨_, rfl, toy_inverts _ _ _, ⟨rfl, [4], [0], .inr ⟨by simp, by simp, 4, rfl, by simp [Spells]⟩, .inr ⟨256, rfl, by omega, by omega, 0, rfl, by simp [Spells]⟩, rfl⟩⟩

end Verif.Props
