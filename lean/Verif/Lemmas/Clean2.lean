import Verif.Lemmas.Clean
/-! The requester's side of a network that does not alter messages. -/
namespace Spdm
open Spec

variable {c c' : Cfg} {cr cr' : Crypto} {root : Bytes} {slots : List (Option FilledSlot)} {es : List ReqEvent} {es' : List RspEvent} {r : Requester} {r' : Responder}

/-- Codes of responses. -/
def isResp (o : Option UInt8) : Bool := o ∈ ([some 0x04, some 0x61, some 0x63, some 0x01, some 0x02, some 0x03] : List (Option UInt8))

/-- The invariant of a requester that is only handed what ends where it should. -/
structure ReqClean (n sw : Nat) (es : List ReqEvent) : Prop where
  gen : ∀ m ∈ reqMsgs es, Gen n sw m
  seen : 3 ≤ (accepted es).length → ∃ m ∈ sinceVersion (reqMsgs es), code m = some 0x63
  clean : NoTrailing n (sinceVersion (reqMsgs es))
  resp : (codes (sinceVersion (reqMsgs es))).filter isResp = codes (accepted es)

theorem ReqClean.of_same {n sw : Nat} {e : ReqEvent} (h : ReqClean n sw es) (he : e.msg = none) : ReqClean n sw (es ++ [e]) := by
  have h1 : reqMsgs (es ++ [e]) = reqMsgs es := by rw [reqMsgs_snoc, he]; simp
  have h2 : accepted (es ++ [e]) = accepted es := by
    rw [accepted_append]
    rcases e with ⟨_, _, _⟩ | ⟨_, _ | _ | _⟩
    · simp [accepted]
    · simp [ReqEvent.msg] at he
    · simp [accepted]
    · simp [accepted]
  exact ⟨by rw [h1]; exact h.gen, by rw [h1, h2]; exact h.seen, by rw [h1]; exact h.clean, by rw [h1, h2]; exact h.resp⟩

/-- The third response is ALGORITHMS. -/
theorem third_code {l : Log} {st : ReqState} {x y m : Bytes} (h : StMatch c [x, y, m] l st) : code m = some 0x63 := by
  generalize hacc : [x, y, m] = acc at h
  cases h with
  | digests _ _ h2 =>
    simp only [List.cons.injEq, and_true] at hacc
    rw [hacc.2.2]
    exact h2.code
  | done h =>
    rw [← hacc] at h
    simp only [path, List.map_cons, List.map_nil, List.cons_append, List.nil_append, List.cons.injEq] at h
    exact h.2.2.1
  | _ => simp at hacc

theorem req_clean {n sw : Nat} (run : ReqRun c cr root es r) (hn : ∀ env buf res, .next env buf res ∈ es → env.nonce.length = n)
    (hr : ∀ rsp b, .recv rsp (.ok b) ∈ es → Gen n sw rsp) : ReqClean n sw es := by
  induction run with
  | new => exact ⟨by simp [reqMsgs], by simp [accepted], noTrailing_nil n, rfl⟩
  | @next es r env buf run ih =>
    have ih := ih (fun env buf res hm => hn _ _ _ (List.mem_append_left _ hm)) (fun rsp b hm => hr _ _ (List.mem_append_left _ hm))
    have hnonce := hn env buf _ (List.mem_append_right _ (List.mem_singleton_self _))
    rcases hp : (Requester.nextRequest c env buf r).1 with out | er | k
    · obtain ⟨_, st, st', hlive, _, hsend, hidx, _, _⟩ := req_next run hp
      obtain ⟨hgen, hcode⟩ := Sent.gen ⟨env, _, _, _, _, hnonce, hsend⟩ sw
      have h1 : reqMsgs (es ++ [.next env buf (.ok out)]) = reqMsgs es ++ [out] := by rw [reqMsgs_append]; rfl
      have h2 : accepted (es ++ [.next env buf (.ok out)]) = accepted es := by rw [accepted_append]; simp [accepted]
      have hnr : isResp (code out) = false ∧ ¬ (code out = some 0x01 ∨ code out = some 0x03) := by
        generalize code out = x at hcode
        revert x
        simp only [requestCodes]
        decide
      refine ⟨?_, ?_, ?_, ?_⟩
      · rw [h1]
        intro m hm
        simp only [List.mem_append, List.mem_singleton] at hm
        rcases hm with hm | rfl
        · exact ih.gen m hm
        · exact hgen
      · rw [h1, h2]
        intro h3
        obtain ⟨m, hm, hk⟩ := ih.seen h3
        refine ⟨m, mem_since hm ?_, hk⟩
        intro h84
        rw [h84] at hidx
        obtain ⟨i, hi⟩ : ∃ i, (accepted es).length = i + 3 := ⟨_, (Nat.sub_add_cancel h3).symm⟩
        rw [hi] at hidx
        rcases i with _ | _ | _ | i <;> simp [requestCodes] at hidx
      · rw [h1]
        exact noTrailing_snoc ih.clean hgen (fun h => absurd h hnr.2)
      · rw [h1, h2, sinceVersion_snoc]
        split
        · rename_i h84
          rw [h84] at hidx
          have h0 : accepted es = [] := by
            rcases ha : accepted es with _ | ⟨x, t⟩
            · rfl
            · rw [ha] at hidx
              rcases t with _ | ⟨_, _ | ⟨_, _ | ⟨_, _ | ⟨_, _ | ⟨_, t⟩⟩⟩⟩⟩ <;> simp [requestCodes] at hidx
          rw [h0]
          simp [codes, hnr.1]
        · have := ih.resp
          simp only [codes, List.map_append, List.filter_append] at this ⊢
          rw [this]
          simp [hnr.1]
    · exact ih.of_same rfl
    · exact ih.of_same rfl
  | @recv es r rsp run ih =>
    have ih := ih (fun env buf res hm => hn _ _ _ (List.mem_append_left _ hm)) (fun rsp b hm => hr _ _ (List.mem_append_left _ hm))
    rcases hp : (Requester.handleMsg c cr rsp r).1 with b | er | k
    · obtain ⟨_, st, st', hlive, _, hrecv, hlive'⟩ := req_recv run hp
      have hgen : Gen n sw rsp := hr rsp b (by rw [hp]; simp)
      have h1 : reqMsgs (es ++ [.recv rsp (.ok b)]) = reqMsgs es ++ [rsp] := by rw [reqMsgs_append]; rfl
      have h2 : accepted (es ++ [.recv rsp (.ok b)]) = accepted es ++ [rsp] := by rw [accepted_append]; rfl
      have hcode := recv_code hrecv
      have hir : isResp (code rsp) = true := by simpa [isResp] using hcode
      have h84 : code rsp ≠ some 0x84 := by
        intro h
        rw [h] at hcode
        simp at hcode
      refine ⟨?_, ?_, ?_, ?_⟩
      · rw [h1]
        intro m hm
        simp only [List.mem_append, List.mem_singleton] at hm
        rcases hm with hm | rfl
        · exact ih.gen m hm
        · exact hgen
      · rw [h1, h2]
        intro h3
        by_cases h3' : 3 ≤ (accepted es).length
        · obtain ⟨m, hm, hk⟩ := ih.seen h3'
          exact ⟨m, mem_since hm h84, hk⟩
        · have hm := hlive'.mat
          rw [h2] at hm
          refine ⟨rsp, last_since _ _, ?_⟩
          simp only [List.length_append, List.length_cons, List.length_nil] at h3
          generalize accepted es = acc at hm h3 h3'
          rcases acc with _ | ⟨x, _ | ⟨y, _ | ⟨z, t⟩⟩⟩
          · simp at h3
          · simp at h3
          · exact third_code hm
          · simp at h3'
      · rw [h1]
        refine noTrailing_snoc ih.clean hgen ?_
        intro hx
        refine selected (n := n) ih.gen (ih.seen ?_)
        have hm := hlive.mat
        generalize (Requester.handleMsg c cr rsp r).2.transcript.get = tr' at hrecv
        generalize accepted es = acc at hm
        cases hrecv with
        | version _ hh => rw [code_of_take hh] at hx; exact absurd hx (by decide)
        | capabilities hr => rw [hr, List.append_assoc, code_header] at hx; exact absurd hx (by decide)
        | algorithms _ hh => rw [code_of_take hh] at hx; exact absurd hx (by decide)
        | digests _ hh => cases hm; simp
        | certificate hr => rw [hr, List.append_assoc, code_header] at hx; exact absurd hx (by decide)
        | challenge _ hh => cases hm; simp
      · rw [h1, h2, sinceVersion_snoc, if_neg h84]
        have := ih.resp
        simp only [codes, List.map_append, List.filter_append] at this ⊢
        rw [this]
        simp [hir]
    · exact ih.of_same rfl
    · exact ih.of_same rfl

/-- Six pairs whose answers are the six responses of a session. -/
theorem pairs_clean {ks : List UInt8} (hks : ∀ k ∈ ks, k ∈ requestCodes) (h : (pairs ks).filter isResp = [some 0x04, some 0x61, some 0x63, some 0x01, some 0x02, some 0x03]) :
    pairs ks = cleanRun.map some := by
  have key : ∀ ks : List UInt8, (∀ k ∈ ks, k ∈ requestCodes) → (pairs ks).filter isResp = ks.map fun k => some (k &&& 0x7F) := by
    intro ks hks
    induction ks with
    | nil => rfl
    | cons k ks ih =>
      have hk := hks k (by simp)
      have h1 : isResp (some k) = false ∧ isResp (some (k &&& 0x7F)) = true := by
        clear ih hks
        revert k
        simp only [requestCodes]
        decide
      have := ih (fun k hk => hks k (by simp [hk]))
      simp only [pairs, List.flatMap_cons, List.filter_append, List.map_cons] at this ⊢
      rw [this]
      simp [h1.1, h1.2]
  rw [key ks hks] at h
  have inv : ks.map (fun k => some (k &&& 0x7F)) = (ks.map fun k => (k &&& 0x7F)).map some := by simp
  rw [inv] at h
  have h' : (ks.map fun k => (k &&& 0x7F)) = [0x04, 0x61, 0x63, 0x01, 0x02, 0x03] := by
    exact (List.map_inj_right (f := some) (fun _ _ h => Option.some.inj h)).mp h
  have back : ∀ k ∈ requestCodes, (k &&& 0x7F) ||| 0x80 = k := by
    simp only [requestCodes]
    decide
  have : ks = ks.map fun k => (k &&& 0x7F) ||| 0x80 := by
    conv => lhs; rw [← List.map_id ks]
    apply List.map_congr_left
    intro k hk
    exact (back k (hks k hk)).symm
  have h6 : ks = [0x84, 0xE1, 0xE3, 0x81, 0x82, 0x83] := by
    rw [this]
    have := congrArg (List.map (· ||| 0x80)) h'
    rw [List.map_map] at this
    exact this
  rw [h6]
  decide

end Spdm
