import Verif.Buffers
import Verif.Lemmas.Safe
import Verif.Lemmas.ReqStep
import Verif.Props.Messages
import Verif.Lemmas.Stale
import Verif.DemoSession
/-!
# Fixed-size containers: C67 (digests and signatures) and C68 (certificate chains)
-/
namespace Spdm
open Spec

/-! ## C67 -/

/-- The buffers an application can get hold of: made from a checked size, from bytes, or read from a message, and possibly written to through `as_mut`. -/
inductive SizedBuf.Made (max : Nat) : SizedBuf → Prop
  | new {n size : Nat} (h : SizedBuf.trySize max n = .ok size) : Made max (SizedBuf.new max size)
  | bytes {bs : Bytes} {b : SizedBuf} (h : SizedBuf.tryFrom max bs = .ok b) : Made max b
  | read {n size : Nat} {r r' : Reader} {b : SizedBuf} (h : SizedBuf.trySize max n = .ok size) (e : SizedBuf.read max size r = (.ok b, r')) : Made max b
  | store {b b' : SizedBuf} {bs : Bytes} (h : Made max b) (e : b.store bs = .ok b') : Made max b'

theorem trySize_ok {max n size : Nat} (h : SizedBuf.trySize max n = .ok size) : size = n ∧ n ≤ max := by
  unfold SizedBuf.trySize at h
  split at h
  · cases h; exact ⟨rfl, by assumption⟩
  · cases h

theorem store_ok {b b' : SizedBuf} {bs : Bytes} (e : b.store bs = .ok b') : b'.size = b.size ∧ b'.buf.length = b.buf.length ∧ bs.length ≤ b.size ∧ b'.buf.take bs.length = bs := by
  unfold SizedBuf.store at e
  split at e
  · split at e
    · cases e
      refine ⟨rfl, ?_, by assumption, List.take_left' rfl⟩
      simp only [List.length_append, List.length_drop]; omega
    · cases e
  · cases e

theorem made_inv {max : Nat} {b : SizedBuf} (h : SizedBuf.Made max b) : b.buf.length = max ∧ b.size ≤ max := by
  induction h with
  | new h => obtain ⟨rfl, hm⟩ := trySize_ok h; exact ⟨by simp [SizedBuf.new], hm⟩
  | @bytes bs b h =>
    unfold SizedBuf.tryFrom at h
    obtain ⟨n, h1, h2⟩ := res_bind_ok h
    obtain ⟨rfl, hm⟩ := trySize_ok h1
    obtain ⟨e1, e2, _⟩ := store_ok h2
    exact ⟨by rw [e2]; simp [SizedBuf.new], by rw [e1]; exact hm⟩
  | @read n size r r' b h e =>
    obtain ⟨rfl, hm⟩ := trySize_ok h
    unfold SizedBuf.read at e
    obtain ⟨d, e1, e⟩ := M.lift_bind_inv e
    obtain ⟨s, r1, e2, e⟩ := M.bind_ok_inv e
    have e3 := congrArg Prod.fst e
    obtain ⟨f1, f2, _⟩ := store_ok (b := SizedBuf.new max size) (bs := s) (b' := b) e3
    exact ⟨by rw [f2]; simp [SizedBuf.new], by rw [f1]; exact hm⟩
  | store _ e ih =>
    obtain ⟨e1, e2, _⟩ := store_ok e
    rw [e1, e2]; exact ih

/-- **C67.** A size is accepted exactly if it is at most the configured maximum. -/
theorem c67_size (max n : Nat) : (∃ size, SizedBuf.trySize max n = .ok size) ↔ n ≤ max := by
  unfold SizedBuf.trySize
  split <;> simp_all

/-- **C67.** The contents of a buffer can always be viewed without aborting, and have the length the buffer reports, at most the maximum. -/
theorem c67_view {max : Nat} {b : SizedBuf} (h : SizedBuf.Made max b) : ∃ v, b.asRef = .ok v ∧ v.length = b.len ∧ b.len ≤ max := by
  obtain ⟨h1, h2⟩ := made_inv h
  refine ⟨b.buf.take b.size, ?_, ?_, h2⟩
  · unfold SizedBuf.asRef sliceTo; rw [if_pos (by omega)]
  · rw [List.length_take]; unfold SizedBuf.len; omega

/-- **C67.** Bytes fit exactly if there are at most the maximum, and are then returned as they were. -/
theorem c67_bytes (max : Nat) (bs : Bytes) :
    (bs.length ≤ max → ∃ b, SizedBuf.tryFrom max bs = .ok b ∧ b.asRef = .ok bs) ∧ (max < bs.length → SizedBuf.tryFrom max bs = .err .tooLarge) := by
  constructor
  · intro h
    have hs : SizedBuf.trySize max bs.length = .ok bs.length := by simp [SizedBuf.trySize, h]
    refine ⟨⟨bs.length, bs ++ (List.replicate max (0 : UInt8)).drop bs.length⟩, ?_, ?_⟩
    · simp [SizedBuf.tryFrom, hs, SizedBuf.store, SizedBuf.new, h]
    · simp [SizedBuf.asRef, sliceTo]
  · intro h
    have hs : SizedBuf.trySize max bs.length = .err .tooLarge := by simp [SizedBuf.trySize]; omega
    simp [SizedBuf.tryFrom, hs]

/-- **C67.** Two buffers are equal exactly if their contents are: what lies behind the contents does not count. -/
theorem c67_eq {max : Nat} {a b : SizedBuf} (ha : SizedBuf.Made max a) (hb : SizedBuf.Made max b) {x y : Bytes} (hx : a.asRef = .ok x) (hy : b.asRef = .ok y) :
    a.eq b = .ok (decide (x = y)) := by
  obtain ⟨v, h1, h2, _⟩ := c67_view ha
  obtain ⟨u, h3, h4, _⟩ := c67_view hb
  rw [hx] at h1; rw [hy] at h3
  cases h1; cases h3
  unfold SizedBuf.eq
  split
  · rw [hx, hy]
    simp only [Res.ok_bind, Res.pure_eq, Res.ok.injEq]
    rw [beq_eq_decide]
  · rename_i hne
    have : x ≠ y := by
      rintro rfl
      exact hne (h2.symm.trans h4)
    simp [this]

/-- **C67.** Reading a buffer from a message is reading that many bytes: the same outcome, the same position afterwards, those bytes as contents. -/
theorem c67_read {max n size : Nat} (h : SizedBuf.trySize max n = .ok size) (r : Reader) :
    match Reader.getSlice size size r with
    | (.ok s, r') => ∃ b, SizedBuf.read max size r = (.ok b, r') ∧ b.asRef = .ok s
    | (.err e, r') => SizedBuf.read max size r = (.err e, r')
    | (.panic k, r') => SizedBuf.read max size r = (.panic k, r') := by
  obtain ⟨rfl, hm⟩ := trySize_ok h
  have hd : (SizedBuf.new max size).asRef = .ok (List.replicate size 0) := by
    simp [SizedBuf.asRef, SizedBuf.new, sliceTo, hm, List.take_replicate]
  have hr : SizedBuf.read max size r = (Reader.getSlice size size >>= fun s => M.lift ((SizedBuf.new max size).store s)) r := by
    unfold SizedBuf.read
    simp only [hd]
    rw [M.run_bind_ok (M.run_lift _ _)]
    simp only [List.length_replicate]
  rw [hr, M.run_bind]
  rcases hg : Reader.getSlice size size r with ⟨s | e | k, r'⟩
  · simp only
    have hl : s.length = size := by
      unfold Reader.getSlice at hg
      split at hg
      · simp at hg
      · split at hg
        · simp at hg
        · simp only [Nat.le_refl, if_true] at hg
          rename_i h1
          simp only [Prod.mk.injEq, Res.ok.injEq] at hg
          rw [← hg.1]
          unfold Reader.remaining at h1
          simp only [List.length_take, List.length_drop]; omega
    refine ⟨⟨size, s ++ (List.replicate max (0 : UInt8)).drop s.length⟩, ?_, ?_⟩
    · simp [M.lift, SizedBuf.store, SizedBuf.new, hm, hl]
    · simp [SizedBuf.asRef, sliceTo, hl]
  · rfl
  · rfl

/-- A 32-byte digest in a 64-byte buffer; another made by overwriting a 64-byte garbage buffer is equal to one with the same contents only. -/
example : ∃ b, SizedBuf.tryFrom 64 (List.replicate 32 7) = .ok b ∧ b.asRef = .ok (List.replicate 32 7) ∧ b.buf.length = 64 ∧
    b.eq (⟨32, List.replicate 32 7 ++ List.replicate 32 9⟩ : SizedBuf) = .ok true ∧ b.eq (⟨31, List.replicate 64 7⟩ : SizedBuf) = .ok false :=
  ⟨⟨32, List.replicate 32 7 ++ List.replicate 32 0⟩, by decide +kernel, by decide +kernel, by decide +kernel, by decide +kernel, by decide +kernel⟩

/-! ## C68 -/

namespace ArrChain

/-- What the accessors show. -/
def shown (ch : ArrChain) : CertificateChain := ⟨ch.rootHash, ch.certs.take ch.num.toNat, ch.leafCert⟩

/-- A sequence of appends, with the outcome of each. -/
def appends (c : Cfg) : List Bytes → ArrChain → List (Res Unit) × ArrChain
  | [], ch => ([], ch)
  | x :: xs, ch =>
    let (r, ch) := append c x ch
    let (rs, ch) := appends c xs ch
    (r :: rs, ch)

/-- The chains an application can get hold of: built by `new` and `append`, or parsed. -/
inductive Made (c : Cfg) : ArrChain → Prop
  | new (root leaf : Bytes) : Made c (new c root leaf)
  | append {ch : ArrChain} (x : Bytes) (h : Made c ch) : Made c (append c x ch).2
  | parse {ch : ArrChain} {buf : Bytes} {d : Nat} (h : parse c buf d = .ok ch) : Made c ch

/-- The invariant. -/
def Fits (c : Cfg) (ch : ArrChain) : Prop := ch.certs.length = c.maxCertChainDepth ∧ ch.num.toNat ≤ c.maxCertChainDepth

theorem u8_succ {n : UInt8} (h : n.toNat + 1 < 256) : (n + 1).toNat = n.toNat + 1 := by
  rw [UInt8.toNat_add]; show (n.toNat + 1) % 256 = _; omega

theorem append_run {c : Cfg} (hd : c.maxCertChainDepth ≤ 255) {ch : ArrChain} (hf : Fits c ch) (x : Bytes) :
    (ch.num.toNat < c.maxCertChainDepth → ∃ ch', append c x ch = (.ok (), ch') ∧ Fits c ch' ∧ ch'.rootHash = ch.rootHash ∧ ch'.leafCert = ch.leafCert ∧
      ch'.num.toNat = ch.num.toNat + 1 ∧ ch'.certs.take ch'.num.toNat = ch.certs.take ch.num.toNat ++ [x]) ∧
    (ch.num.toNat = c.maxCertChainDepth → append c x ch = (.err .maxDepthExceeded, ch)) := by
  obtain ⟨h1, h2⟩ := hf
  constructor
  · intro h
    have hs := u8_succ (n := ch.num) (by omega)
    refine ⟨{ ch with certs := ch.certs.set ch.num.toNat x, num := ch.num + 1 }, ?_, ⟨by simp [h1], by simp only; omega⟩, rfl, rfl, hs, ?_⟩
    · unfold append
      rw [if_neg (by omega), if_pos (by omega)]
      simp only
      rw [if_pos (by omega)]
    · simp only
      rw [hs, List.take_add_one, List.getElem?_set_self (by omega), List.take_set_of_le (Nat.le_refl _)]
      rfl
  · intro h
    unfold append
    rw [if_pos h]

theorem bind_run {σ α β : Type} {m m' : M σ α} {s s' : σ} {f : α → M σ β} (h : m s = m' s') : (m >>= f) s = (m' >>= f) s' := by
  rw [M.run_bind, M.run_bind, h]

theorem sumLoop_run (certs : List Bytes) : ∀ (n i acc : Nat), i + n ≤ certs.length →
    sumLoop certs n i acc = .ok (((certs.drop i).take n).foldl (fun acc x => acc + x.length) acc)
  | 0, i, acc, _ => by simp [sumLoop]
  | n + 1, i, acc, h => by
    have hi : i < certs.length := by omega
    unfold sumLoop
    have : index certs i = .ok certs[i] := by simp [index, hi]
    rw [this, Res.ok_bind, sumLoop_run certs n (i + 1) _ (by omega), List.drop_eq_getElem_cons hi]
    rfl

theorem writeLoop_run (certs : List Bytes) (leaf : Bytes) : ∀ (n i : Nat) (w : Writer), i + n ≤ certs.length →
    (writeLoop certs n i >>= fun _ => Writer.extend leaf >>= fun _ => Writer.offsetM) w =
      (CertificateChain.writeCerts ((certs.drop i).take n) >>= fun _ => Writer.extend leaf >>= fun _ => Writer.offsetM) w
  | 0, i, w, _ => by
    simp only [writeLoop, List.take_zero, CertificateChain.writeCerts]
    rw [M.run_bind_ok (M.run_pure _ _), M.run_bind_ok (m := Writer.offsetM) (a := w.offset) (s' := w) rfl]
  | n + 1, i, w, h => by
    have hi : i < certs.length := by omega
    rw [List.drop_eq_getElem_cons hi, List.take_succ_cons]
    simp only [writeLoop, CertificateChain.writeCerts]
    have : index certs i = .ok certs[i] := by simp [index, hi]
    rw [this]
    rcases he : Writer.extend certs[i] w with ⟨a | e | k, w'⟩
    · have h1 : ((M.lift (Res.ok certs[i]) >>= fun x => Writer.extend x >>= fun _ => writeLoop certs n (i + 1) : W Unit)) w = writeLoop certs n (i + 1) w' := by
        rw [M.run_bind_ok (M.run_lift _ _), M.run_bind_ok he]
      have h2 : ((Writer.extend certs[i] >>= fun _ => CertificateChain.writeCerts ((certs.drop (i + 1)).take n) : W Nat)) w =
          CertificateChain.writeCerts ((certs.drop (i + 1)).take n) w' := by
        rw [M.run_bind_ok he]
      have ih := writeLoop_run certs leaf n (i + 1) w' (by omega)
      rw [bind_run h1, bind_run h2]
      exact ih
    · have h1 : ((M.lift (Res.ok certs[i]) >>= fun x => Writer.extend x >>= fun _ => writeLoop certs n (i + 1) : W Unit)) w = (.err e, w') := by
        rw [M.run_bind_ok (M.run_lift _ _), M.run_bind_err he]
      have h2 : ((Writer.extend certs[i] >>= fun _ => CertificateChain.writeCerts ((certs.drop (i + 1)).take n) : W Nat)) w = (.err e, w') := by
        rw [M.run_bind_err he]
      rw [M.run_bind_err h1, M.run_bind_err h2]
    · have h1 : ((M.lift (Res.ok certs[i]) >>= fun x => Writer.extend x >>= fun _ => writeLoop certs n (i + 1) : W Unit)) w = (.panic k, w') := by
        rw [M.run_bind_ok (M.run_lift _ _), M.run_bind_panic he]
      have h2 : ((Writer.extend certs[i] >>= fun _ => CertificateChain.writeCerts ((certs.drop (i + 1)).take n) : W Nat)) w = (.panic k, w') := by
        rw [M.run_bind_panic he]
      rw [M.run_bind_panic h1, M.run_bind_panic h2]

/-- Outcomes of the two parsing loops that show the same. -/
def SameLoop (c : Cfg) : Res (List Bytes × Nat) × Reader → Res (UInt8 × List Bytes × Nat) × Reader → Prop
  | (.ok (l, off), r), (.ok (num, certs, off'), r') => off' = off ∧ r' = r ∧ certs.length = c.maxCertChainDepth ∧ num.toNat ≤ c.maxCertChainDepth ∧ certs.take num.toNat = l
  | (.err e, r), (.err e', r') => e' = e ∧ r' = r
  | (.panic k, r), (.panic k', r') => k' = k ∧ r' = r
  | _, _ => False

theorem parseLoop_run {c : Cfg} (hd : c.maxCertChainDepth ≤ 255) (buf : Bytes) : ∀ (fuel : Nat) (num : UInt8) (certs : List Bytes) (r : Reader),
    certs.length = c.maxCertChainDepth → num.toNat ≤ c.maxCertChainDepth →
    SameLoop c (CertificateChain.parseLoop c buf fuel (certs.take num.toNat) r) (parseLoop c buf fuel num certs r)
  | 0, num, certs, r => by intro _ _; exact ⟨rfl, rfl⟩
  | fuel + 1, num, certs, r => by
    intro h1 h2
    unfold CertificateChain.parseLoop parseLoop
    rw [M.run_bind_ok (m := M.get) (a := r) (s' := r) rfl, M.run_bind_ok (m := M.get) (a := r) (s' := r) rfl]
    rcases hs : CertificateChain.readCertSize r with ⟨⟨len, hsz⟩ | e | k, r1⟩
    · rw [M.run_bind_ok hs, M.run_bind_ok hs]
      simp only
      rw [M.run_bind_ok (m := M.get) (a := r1) (s' := r1) rfl, M.run_bind_ok (m := M.get) (a := r1) (s' := r1) rfl]
      by_cases hl : len > r1.remaining
      · rw [if_pos hl, if_pos hl]; exact ⟨rfl, rfl⟩
      rw [if_neg hl, if_neg hl]
      by_cases he : len = r1.remaining
      · rw [if_pos he, if_pos he]; exact ⟨rfl, rfl, h1, h2, rfl⟩
      rw [if_neg he, if_neg he]
      have hlen : (certs.take num.toNat).length = num.toNat := by rw [List.length_take]; omega
      rw [hlen]
      by_cases hm : num.toNat = c.maxCertChainDepth
      · rw [if_pos hm, if_pos hm]; exact ⟨rfl, rfl⟩
      rw [if_neg hm, if_neg hm]
      rcases hc : CertificateChain.slice buf r.byteOffset (r.byteOffset + len + hsz) with x | e | k
      · rw [M.run_bind_ok (M.run_lift _ _), M.run_bind_ok (M.run_lift _ _)]
        have hset : setIndex certs num.toNat x = .ok (certs.set num.toNat x) := by simp [setIndex, h1]; omega
        rw [hset, M.run_bind_ok (M.run_lift _ _), if_pos (by omega), M.run_bind_ok (M.run_lift _ _)]
        have hnum := u8_succ (n := num) (by omega)
        have htake : (certs.set num.toNat x).take (num + 1).toNat = certs.take num.toNat ++ [x] := by
          rw [hnum, List.take_add_one, List.getElem?_set_self (by omega), List.take_set_of_le (Nat.le_refl _)]
          rfl
        rcases hk : Reader.skipIgnored len r1 with ⟨u | e | k, r2⟩
        · rw [M.run_bind_ok hk, M.run_bind_ok hk, ← htake]
          exact parseLoop_run hd buf fuel (num + 1) _ r2 (by rw [List.length_set]; exact h1) (by omega)
        · rw [M.run_bind_err hk, M.run_bind_err hk]; exact ⟨rfl, rfl⟩
        · rw [M.run_bind_panic hk, M.run_bind_panic hk]; exact ⟨rfl, rfl⟩
      · exact ⟨rfl, rfl⟩
      · exact ⟨rfl, rfl⟩
    · rw [M.run_bind_err hs, M.run_bind_err hs]; exact ⟨rfl, rfl⟩
    · rw [M.run_bind_panic hs, M.run_bind_panic hs]; exact ⟨rfl, rfl⟩

theorem err_same {α β : Type} {e e' : Err} (h : (Res.err e : Res α) = .err e') : (Res.err e : Res β) = .err e' := by cases h; rfl
theorem panic_same {α β : Type} {k k' : PanicKind} (h : (Res.panic k : Res α) = .panic k') : (Res.panic k : Res β) = .panic k' := by cases h; rfl
theorem err_panic {α : Type} {e : Err} {k : PanicKind} (h : (Res.err e : Res α) = .panic k) : False := by cases h
theorem panic_err {α : Type} {e : Err} {k : PanicKind} (h : (Res.panic k : Res α) = .err e) : False := by cases h

/-- What parsing into the array shows is what parsing into a list gives. -/
theorem parse_run {c : Cfg} (hd : c.maxCertChainDepth ≤ 255) (buf : Bytes) (d : Nat) :
    (∀ m, CertificateChain.parse c buf d = .ok m → ∃ ch, parse c buf d = .ok ch ∧ Fits c ch ∧ ch.shown = m) ∧
    (∀ e, CertificateChain.parse c buf d = .err e → parse c buf d = .err e) ∧
    (∀ k, CertificateChain.parse c buf d = .panic k → parse c buf d = .panic k) := by
  unfold CertificateChain.parse parse CertificateChain.read read
  rcases h0 : Reader.getU16 (Reader.new buf) with ⟨len | e | k, r0⟩
  rotate_left
  · rw [M.run_bind_err h0, M.run_bind_err h0]
    exact ⟨fun m h => (err_ok h).elim, fun e h => err_same h, fun k h => (err_panic h).elim⟩
  · rw [M.run_bind_panic h0, M.run_bind_panic h0]
    exact ⟨fun m h => (panic_ok h).elim, fun e h => (panic_err h).elim, fun k h => panic_same h⟩
  rw [M.run_bind_ok h0, M.run_bind_ok h0]
  by_cases hl : len.toNat ≠ buf.length
  · rw [if_pos hl, if_pos hl]
    exact ⟨fun m h => (err_ok h).elim, fun e h => err_same h, fun k h => (err_panic h).elim⟩
  rw [if_neg hl, if_neg hl]
  rcases h1 : Reader.skipReserved 2 r0 with ⟨u | e | k, r1⟩
  rotate_left
  · rw [M.run_bind_err h1, M.run_bind_err h1]
    exact ⟨fun m h => (err_ok h).elim, fun e h => err_same h, fun k h => (err_panic h).elim⟩
  · rw [M.run_bind_panic h1, M.run_bind_panic h1]
    exact ⟨fun m h => (panic_ok h).elim, fun e h => (panic_err h).elim, fun k h => panic_same h⟩
  rw [M.run_bind_ok h1, M.run_bind_ok h1, M.run_bind_ok (m := M.get) (a := r1) (s' := r1) rfl, M.run_bind_ok (m := M.get) (a := r1) (s' := r1) rfl]
  rcases h2 : Reader.skipIgnored d r1 with ⟨u | e | k, r2⟩
  rotate_left
  · rw [M.run_bind_err h2, M.run_bind_err h2]
    exact ⟨fun m h => (err_ok h).elim, fun e h => err_same h, fun k h => (err_panic h).elim⟩
  · rw [M.run_bind_panic h2, M.run_bind_panic h2]
    exact ⟨fun m h => (panic_ok h).elim, fun e h => (panic_err h).elim, fun k h => panic_same h⟩
  rw [M.run_bind_ok h2, M.run_bind_ok h2]
  rcases h3 : CertificateChain.slice buf r1.byteOffset (r1.byteOffset + d) with root | e | k
  rotate_left
  · exact ⟨fun m h => (err_ok h).elim, fun e h => err_same h, fun k h => (err_panic h).elim⟩
  · exact ⟨fun m h => (panic_ok h).elim, fun e h => (panic_err h).elim, fun k h => panic_same h⟩
  rw [M.run_bind_ok (M.run_lift _ _), M.run_bind_ok (M.run_lift _ _)]
  have hs := parseLoop_run hd buf (buf.length + 1) 0 (List.replicate c.maxCertChainDepth buf) r2 (by simp) (by simp)
  simp only [UInt8.toNat_zero, List.take_zero] at hs
  rcases h4 : CertificateChain.parseLoop c buf (buf.length + 1) [] r2 with ⟨⟨l, off⟩ | e | k, r3⟩ <;>
    rcases h5 : parseLoop c buf (buf.length + 1) 0 (List.replicate c.maxCertChainDepth buf) r2 with ⟨⟨num, certs, off'⟩ | e' | k', r3'⟩ <;>
    rw [h4, h5] at hs <;> simp only [SameLoop] at hs
  · obtain ⟨rfl, rfl, s1, s2, s3⟩ := hs
    rw [M.run_bind_ok h4, M.run_bind_ok h5]
    simp only
    rcases h6 : sliceFrom buf off' with leaf | e | k
    · refine ⟨fun m h => ?_, fun e h => (err_ok h.symm).elim, fun k h => (panic_ok h.symm).elim⟩
      have h : (⟨root, l, leaf⟩ : CertificateChain) = m := Res.ok.inj h
      exact ⟨⟨root, leaf, num, certs⟩, rfl, ⟨s1, s2⟩, by rw [← h, ← s3]; rfl⟩
    · exact ⟨fun m h => (err_ok h).elim, fun e h => err_same h, fun k h => (err_panic h).elim⟩
    · exact ⟨fun m h => (panic_ok h).elim, fun e h => (panic_err h).elim, fun k h => panic_same h⟩
  · obtain ⟨rfl, rfl⟩ := hs
    rw [M.run_bind_err h4, M.run_bind_err h5]
    exact ⟨fun m h => (err_ok h).elim, fun e h => err_same h, fun k h => (err_panic h).elim⟩
  · obtain ⟨rfl, rfl⟩ := hs
    rw [M.run_bind_panic h4, M.run_bind_panic h5]
    exact ⟨fun m h => (panic_ok h).elim, fun e h => (panic_err h).elim, fun k h => panic_same h⟩

theorem made_fits {c : Cfg} (hd : c.maxCertChainDepth ≤ 255) {ch : ArrChain} (h : Made c ch) : Fits c ch := by
  induction h with
  | new root leaf => exact ⟨by simp [ArrChain.new], by simp [ArrChain.new]⟩
  | @append ch x h ih =>
    rcases Nat.lt_or_ge ch.num.toNat c.maxCertChainDepth with hl | hl
    · obtain ⟨ch', e, hf, _⟩ := (append_run hd ih x).1 hl
      rw [e]; exact hf
    · rw [(append_run hd ih x).2 (Nat.le_antisymm ih.2 hl)]; exact ih
  | @parse ch buf d h =>
    obtain ⟨p1, p2, p3⟩ := parse_run hd buf d
    rcases hp : CertificateChain.parse c buf d with m | e | k
    · obtain ⟨ch', e, hf, _⟩ := p1 m hp
      rw [h] at e; cases e; exact hf
    · rw [p2 e hp] at h; cases h
    · rw [p3 k hp] at h; cases h

theorem appends_run {c : Cfg} (hd : c.maxCertChainDepth ≤ 255) : ∀ (xs : List Bytes) (ch : ArrChain), Fits c ch →
    (appends c xs ch).1 = (List.range xs.length).map (fun i => if ch.num.toNat + i < c.maxCertChainDepth then .ok () else .err .maxDepthExceeded) ∧
    Fits c (appends c xs ch).2 ∧
    (appends c xs ch).2.shown = ⟨ch.rootHash, (ch.certs.take ch.num.toNat ++ xs).take c.maxCertChainDepth, ch.leafCert⟩
  | [], ch => by
    intro hf
    refine ⟨rfl, hf, ?_⟩
    simp only [appends, shown, List.append_nil]
    rw [List.take_take, Nat.min_eq_right hf.2]
  | x :: xs, ch => by
    intro hf
    have hlen : (ch.certs.take ch.num.toNat).length = ch.num.toNat := by rw [List.length_take, hf.1]; exact Nat.min_eq_left hf.2
    simp only [appends]
    rcases Nat.lt_or_ge ch.num.toNat c.maxCertChainDepth with hl | hl
    · obtain ⟨ch', e, hf', r1, r2, r3, r4⟩ := (append_run hd hf x).1 hl
      obtain ⟨i1, i2, i3⟩ := appends_run hd xs ch' hf'
      rw [e]
      refine ⟨?_, i2, ?_⟩
      · simp only [i1, List.length_cons, List.range_succ_eq_map, List.map_cons, List.map_map, Nat.add_zero, if_pos hl, r3]
        congr 1
        apply List.map_congr_left
        intro i _
        simp only [Function.comp]
        rw [show ch.num.toNat + 1 + i = ch.num.toNat + (i + 1) by omega]
      · rw [i3, r1, r2, r4, List.append_assoc]; rfl
    · have he := Nat.le_antisymm hf.2 hl
      rw [(append_run hd hf x).2 he]
      obtain ⟨i1, i2, i3⟩ := appends_run hd xs ch hf
      refine ⟨?_, i2, ?_⟩
      · simp only [i1, List.length_cons, List.range_succ_eq_map, List.map_cons, List.map_map, Nat.add_zero]
        rw [if_neg (by omega)]
        congr 1
        apply List.map_congr_left
        intro i _
        simp only [Function.comp]
        rw [if_neg (by omega), if_neg (by omega)]
      · rw [i3, List.take_append_of_le_length (by omega), List.take_append_of_le_length (by omega)]

end ArrChain

/-- **C68.** Appending intermediate certificates to a new chain: the first `MAX_CERT_CHAIN_DEPTH` succeed, all others are refused and change nothing; the
chain then shows exactly the accepted certificates, in order, and the root hash and leaf it was made with.  (`u8` counts them; the build refuses depths over 24.) -/
theorem c68_builder {c : Cfg} (hd : c.maxCertChainDepth ≤ 255) (root leaf : Bytes) (xs : List Bytes) :
    (ArrChain.appends c xs (ArrChain.new c root leaf)).1 = (List.range xs.length).map (fun i => if i < c.maxCertChainDepth then .ok () else .err .maxDepthExceeded) ∧
    (ArrChain.appends c xs (ArrChain.new c root leaf)).2.intermediateCerts = .ok (xs.take c.maxCertChainDepth) ∧
    (ArrChain.appends c xs (ArrChain.new c root leaf)).2.rootHash = root ∧ (ArrChain.appends c xs (ArrChain.new c root leaf)).2.leafCert = leaf := by
  obtain ⟨h1, h2, h3⟩ := ArrChain.appends_run hd xs (ArrChain.new c root leaf) ⟨by simp [ArrChain.new], by simp [ArrChain.new]⟩
  simp only [ArrChain.new, UInt8.toNat_zero, Nat.zero_add, List.take_zero, List.nil_append] at h1 h3
  refine ⟨h1, ?_, ?_, ?_⟩
  · unfold ArrChain.intermediateCerts
    rw [if_pos (by have := h2.1; have := h2.2; simp only [ArrChain.new] at *; omega)]
    have := congrArg CertificateChain.intermediateCerts h3
    exact congrArg Res.ok this
  · exact congrArg CertificateChain.rootHash h3
  · exact congrArg CertificateChain.leafCert h3

/-- **C68.** Appending to the array shows the same as appending to the list of certificates: refused with MaxDepthExceeded and nothing changed when MAX_CERT_CHAIN_DEPTH
certificates are there, added at the end otherwise. -/
theorem c68_append {c : Cfg} (hd : c.maxCertChainDepth ≤ 255) {ch : ArrChain} (h : ArrChain.Made c ch) (x : Bytes) :
    ∃ xs, ch.intermediateCerts = .ok xs ∧ xs.length ≤ c.maxCertChainDepth ∧
      (xs.length = c.maxCertChainDepth → CertificateChain.appendIntermediateCert c ⟨ch.rootHash, xs, ch.leafCert⟩ x = .err .maxDepthExceeded ∧
        ArrChain.append c x ch = (.err .maxDepthExceeded, ch)) ∧
      (xs.length < c.maxCertChainDepth → CertificateChain.appendIntermediateCert c ⟨ch.rootHash, xs, ch.leafCert⟩ x = .ok ⟨ch.rootHash, xs ++ [x], ch.leafCert⟩ ∧
        ∃ ch', ArrChain.append c x ch = (.ok (), ch') ∧ ch'.rootHash = ch.rootHash ∧ ch'.leafCert = ch.leafCert ∧ ch'.intermediateCerts = .ok (xs ++ [x])) := by
  have hf := ArrChain.made_fits hd h
  have hlen : (ch.certs.take ch.num.toNat).length = ch.num.toNat := by have := hf.1; have := hf.2; simp; omega
  refine ⟨ch.certs.take ch.num.toNat, ?_, by rw [hlen]; exact hf.2, fun e => ⟨?_, ?_⟩, fun e => ⟨?_, ?_⟩⟩
  · unfold ArrChain.intermediateCerts; rw [if_pos (by have := hf.1; have := hf.2; omega)]
  · unfold CertificateChain.appendIntermediateCert; rw [if_pos e]
  · exact (ArrChain.append_run hd hf x).2 (by omega)
  · unfold CertificateChain.appendIntermediateCert; rw [if_neg (by simp only; omega)]
  · obtain ⟨ch', e1, e2, e3, e4, e5⟩ := (ArrChain.append_run hd hf x).1 (by omega)
    refine ⟨ch', e1, e3, e4, ?_⟩
    unfold ArrChain.intermediateCerts
    rw [if_pos (by have := e2.1; have := e2.2; omega), e5.2]

/-- C68: the limit of 255 is needed.  The count of certificates is one byte, so under a larger maximum the 256th certificate aborts, added by hand or read from a chain.  (The
build accepts no maximum above 24, C53.) -/
theorem c68_count_overflows {c : Cfg} (hd : 255 < c.maxCertChainDepth) {ch : ArrChain} (hn : ch.num = 255) (hl : ch.certs.length = c.maxCertChainDepth) (x : Bytes) :
    (ArrChain.append c x ch).1 = .panic .overflow := by
  unfold ArrChain.append
  simp only [hn]
  rw [if_neg (by simp; omega), if_pos (by simp; omega), if_neg (by simp)]

example : (ArrChain.parse { demoCfg with maxCertChainDepth := 300 } ([6, 2, 0, 0] ++ (List.replicate 257 [0x30, 0x00]).flatten) 0).isPanic = true ∧
    (ArrChain.parse { demoCfg with maxCertChainDepth := 300 } ([4, 2, 0, 0] ++ (List.replicate 256 [0x30, 0x00]).flatten) 0).isOk = true := by decide +kernel

/-- **C68.** A chain can always be shown without aborting, and is serialised as what it shows. -/
theorem c68_write {c : Cfg} (hd : c.maxCertChainDepth ≤ 255) {ch : ArrChain} (h : ArrChain.Made c ch) :
    ∃ xs, ch.intermediateCerts = .ok xs ∧ ∀ w, ch.write w = (CertificateChain.mk ch.rootHash xs ch.leafCert).write w := by
  obtain ⟨h1, h2⟩ := ArrChain.made_fits hd h
  refine ⟨ch.certs.take ch.num.toNat, ?_, fun w => ?_⟩
  · unfold ArrChain.intermediateCerts; rw [if_pos (by omega)]
  · have hl : CertificateChain.wireLength ⟨ch.rootHash, ch.certs.take ch.num.toNat, ch.leafCert⟩ =
        4 + ch.rootHash.length + ((ch.certs.drop 0).take ch.num.toNat).foldl (fun acc x => acc + x.length) 0 + ch.leafCert.length := rfl
    unfold ArrChain.write CertificateChain.write
    rw [ArrChain.sumLoop_run _ _ _ _ (by omega), M.run_bind_ok (M.run_lift _ _)]
    simp only [← hl]
    split
    · rfl
    · rw [M.run_bind, M.run_bind]
      rcases Writer.putU16 _ w with ⟨a | e | k, w1⟩ <;> simp only
      rw [M.run_bind, M.run_bind]
      rcases Writer.putReserved 2 w1 with ⟨a | e | k, w2⟩ <;> simp only
      rw [M.run_bind, M.run_bind]
      rcases Writer.extend ch.rootHash w2 with ⟨a | e | k, w3⟩ <;> simp only
      exact ArrChain.writeLoop_run ch.certs ch.leafCert ch.num.toNat 0 w3 (by omega)

/-- **C68.** Two chains are equal exactly if they show the same root hash, leaf and intermediate certificates: the unused entries do not count. -/
theorem c68_eq {a b : ArrChain} {xs ys : List Bytes}
    (hx : a.intermediateCerts = .ok xs) (hy : b.intermediateCerts = .ok ys) :
    a.eq b = .ok (decide (a.rootHash = b.rootHash ∧ a.leafCert = b.leafCert ∧ xs = ys)) := by
  unfold ArrChain.eq
  by_cases h1 : a.rootHash = b.rootHash
  · by_cases h2 : a.leafCert = b.leafCert
    · simp [h1, h2, hx, hy, beq_eq_decide]
    · simp [h1, h2]
  · simp [h1]

/-- **C68.** Parsing gives the same outcome, and on success shows the same, as parsing into a list of certificates - so what C15 and C25 say of the parsed
chain holds of the array. -/
theorem c68_parse {c : Cfg} (hd : c.maxCertChainDepth ≤ 255) (buf : Bytes) (d : Nat) :
    match CertificateChain.parse c buf d with
    | .ok m => ∃ ch, ArrChain.parse c buf d = .ok ch ∧ ch.rootHash = m.rootHash ∧ ch.leafCert = m.leafCert ∧ ch.intermediateCerts = .ok m.intermediateCerts
    | .err e => ArrChain.parse c buf d = .err e
    | .panic k => ArrChain.parse c buf d = .panic k := by
  obtain ⟨p1, p2, p3⟩ := ArrChain.parse_run hd buf d
  split
  · rename_i m hm
    obtain ⟨ch, e, hf, rfl⟩ := p1 m hm
    refine ⟨ch, e, rfl, rfl, ?_⟩
    unfold ArrChain.intermediateCerts; rw [if_pos (by rw [hf.1]; exact hf.2)]; rfl
  · rename_i e he; exact p2 e he
  · rename_i k hk; exact p3 k hk

/-- Two intermediates in a chain of depth two; the third is refused. -/
example : let c : Cfg := { demoCfg with maxCertChainDepth := 2 }
    (ArrChain.appends c [[1], [2], [3]] (ArrChain.new c [9] [7])).1 = [.ok (), .ok (), .err .maxDepthExceeded] ∧
    (ArrChain.appends c [[1], [2], [3]] (ArrChain.new c [9] [7])).2.intermediateCerts = .ok [[1], [2]] := by decide +kernel

end Spdm
