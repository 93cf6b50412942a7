import Verif.Lemmas.UserAlg
import Verif.Lemmas.Standards
import Verif.Props.HashAppend
/-
C55: hash algorithms written by the user. `Requirements` (Spec/UserAlg.lean) are the documented requirements.
-/
namespace Hash2
open Spec

/-! ### the library's own algorithms meet the requirements -/

/-- **C55.** Every algorithm of the library meets the requirements of the documentation, on every platform (spooky2_128 only as long as its
byte counter does not wrap), and accepts null pointers, except SHA-2 at run time. -/
theorem library_meets_requirements (a : AlgName) (ha : a ≠ .spooky2_128) (env : Env) :
    ∃ L : Requirements a.impl env, a.NullOk env → L.AcceptsNull :=
  ⟨(a.impls env).requirements (fun _ _ _ _ => AlgName.fits_any ha env _ _) (AlgName.bytesFit_any ha env),
    fun h s ⟨_, r, _⟩ => (a.impls env).null_ok (AlgName.nullSafe h) s _ r⟩

example (env : Env) : ∃ L : Requirements (AlgName.digest (.hmac .md5_128)).impl env, (AlgName.digest (.hmac .md5_128)).NullOk env → L.AcceptsNull :=
  library_meets_requirements (.digest (.hmac .md5_128)) (by simp) env

theorem exec_once {A : HashAlg} {env : Env} {s t u : A.State} {r : A.R} {m : List Byte} (h1 : A.init env = .ok s)
    (h2 : A.update env s (.mem m) m.length = .ok t) (h3 : A.result env t = .ok (u, r)) :
    A.exec env .default [.update (.mem m) m.length, .result] = .ok [r] := by
  simp only [HashAlg.exec, HashAlg.construct, h1, Except.bind_ok, HashAlg.run, h2, h3]
  rfl

/-! ### an algorithm of the user, for the examples -/

/-- `void update( unsigned char const* p, std::size_t n ) { for( ; n; --n ) h = h * 31 + *p++; }`, `result()` stores h in eight bytes and
increments it; block_size is 16 -/
def times31 : DigestAlg where
  State := W64
  blockSize := 16
  init _ := .ok 0
  initSeed _ k := .ok k
  initBytes _ p n := if p.Readable n then .ok (loop 0 (p.bytes n)) else .error .oob
  update _ s p n := if p.Readable n then .ok (loop s (p.bytes n)) else .error .oob
  result _ s := .ok (s + 1, natLE 8 s.toNat)
where
  loop (h : W64) (bs : List Byte) : W64 := bs.foldl (fun h b => h * 31#64 + b.setWidth 64) h

theorem times31_update (env : Env) (s : W64) (bs more : List Byte) :
    times31.update env s (.mem (bs ++ more)) bs.length = .ok (times31.loop s bs) := by
  refine (if_pos (by simp [Ptr.Readable])).trans ?_
  show (Except.ok (times31.loop s ((bs ++ more).take bs.length)) : M W64) = _
  rw [List.take_left]
  rfl

theorem times31_update' (env : Env) (s : W64) (bs : List Byte) : times31.update env s (.mem bs) bs.length = .ok (times31.loop s bs) := by
  simpa using times31_update env s bs []

def times31_ok (env : Env) : Requirements times31.toHash env where
  equiv s s' := s = s'
  default_ctor := ⟨_, rfl, rfl⟩
  seed_ctor k := ⟨_, rfl, rfl⟩
  bytes_ctor bs more := ⟨_, _, times31_update env 0 bs more, times31_update' env 0 bs, rfl, rfl, rfl⟩
  null_ctor := ⟨_, _, show (if Ptr.Readable .null 0 then Except.ok (times31.loop 0 []) else .error .oob) = _ from if_pos rfl,
    times31_update' env 0 [], rfl, rfl, rfl⟩
  update_same s s' bs more h := ⟨_, _, times31_update env s bs more, times31_update' env s' bs, congrArg (times31.loop · bs) h⟩
  update_twice s xs ys t u t' _ e1 e2 e3 := by
    have e1' := Except.ok.inj ((times31_update' env s xs).symm.trans e1)
    have e2' := Except.ok.inj ((times31_update' env t ys).symm.trans e2)
    have e3' := Except.ok.inj ((times31_update' env s (xs ++ ys)).symm.trans e3)
    rw [← e3', ← e2', ← e1']
    exact List.foldl_append
  update_nothing s t _ e := (Except.ok.inj ((times31_update' env s []).symm.trans e)).symm
  result_same s s' h := ⟨_, _, _, rfl, by cases h; rfl, rfl⟩
  left _ _ _ := rfl
  right _ _ _ := rfl

theorem times31_null (env : Env) : (times31_ok env).AcceptsNull := fun s _ =>
  show (if Ptr.Readable .null 0 then Except.ok (times31.loop s []) else .error .oob) = _ from if_pos rfl

theorem times31_integral (env : Env) (s t : W64) (r : List Byte) (h : times31.toHash.result env s = .ok (t, r)) :
    ∃ x, times31.toHash.integral env r = .ok x := by
  have h : (Except.ok (s + 1, natLE 8 s.toNat) : M (W64 × List Byte)) = .ok (t, r) := h
  cases h
  exact ⟨_, integral_digest env _ (by simp [natLE_length])⟩

/-! ### programs on user-defined algorithms -/

variable {A : HashAlg} {env : Env}

/-- **C55, calls.** Histories of calls which feed the same bytes between the same calls of result return the same results. -/
theorem user_streams (L : Requirements A env) (c : Ctor) (hc : c.Valid) (ops ops' : List Op) (ts : List Tok)
    (h : stream ops = some ts) (h' : stream ops' = some ts) (hn : L.AcceptsNull ∨ NoNull ops ∧ NoNull ops') :
    ∃ rs, A.exec env c ops = .ok rs ∧ A.exec env c ops' = .ok rs :=
  ⟨_, L.exec_ok hc h (hn.imp id And.left), L.exec_ok hc h' (hn.imp id And.right)⟩

example : ∃ rs, times31.toHash.exec le64 .default [.update (.mem [1, 2, 3]) 3, .result] = .ok rs ∧
    times31.toHash.exec le64 .default [.update (.mem [1, 2]) 1, .update .null 0, .update (.mem [2, 3]) 2, .result] = .ok rs :=
  user_streams (times31_ok le64) .default trivial _ _ [.data 1, .data 2, .data 3, .fin] rfl rfl (.inl (times31_null _))

/-- **C55, hash_append.** hash_append to an object of a user's algorithm is, without undefined behaviour, update with the message of the value. -/
theorem user_append_is_update (L : Requirements A env) (c : Ctor) (hc : c.Valid) (ps : List Stmt) (hv : ∀ p ∈ ps, p.Valid env)
    (hn : L.AcceptsNull ∨ ∀ p ∈ ps, p.NoNull env) (hr : env.fp.roundDown = false) (hi : ∀ s t r, A.result env s = .ok (t, r) → ∃ x, A.integral env r = .ok x) :
    ∃ rs, A.execStmts env c ps = .ok rs ∧ A.exec env c (A.expand env c [] ps) = .ok rs := by
  obtain ⟨ts, h1, h2, h3⟩ := L.runs_ok hc hv hn hr hi
  exact ⟨_, h3, L.exec_ok hc h1 h2⟩

example : ∃ rs, times31.toHash.execStmts le64 .default (aProgram default_flavor) = .ok rs ∧
    times31.toHash.exec le64 .default (times31.toHash.expand le64 .default [] (aProgram default_flavor)) = .ok rs :=
  user_append_is_update (times31_ok le64) .default trivial _
    (aProgram_runs .fnv1a_64 le64 default_flavor trivial rfl (by decide)).valid (.inl (times31_null _)) rfl (times31_integral le64)

/-- **C55, equal objects.** Equal objects hash equally. -/
theorem user_equal_objects (L : Requirements A env) (c : Ctor) (hc : c.Valid) (before after : List Stmt) (f : Flavor) (t : Ty) (v v' : t.Val)
    (he : Equal t v v') (hv : ∀ p ∈ before ++ .append f t v :: after, p.Valid env) (hv' : (Stmt.append f t v').Valid env)
    (hn : L.AcceptsNull ∨ ∀ p ∈ .append f t v' :: before ++ .append f t v :: after, p.NoNull env)
    (hr : env.fp.roundDown = false) (hi : ∀ s t r, A.result env s = .ok (t, r) → ∃ x, A.integral env r = .ok x) :
    ∃ rs, A.execStmts env c (before ++ .append f t v :: after) = .ok rs ∧ A.execStmts env c (before ++ .append f t v' :: after) = .ok rs := by
  obtain ⟨rs, e1, e2⟩ := user_append_is_update L c hc _ hv (hn.imp id fun h p hp => h p (List.mem_cons_of_mem _ hp)) hr hi
  obtain ⟨rs', e1', e2'⟩ := user_append_is_update L c hc (before ++ .append f t v' :: after) (by
      intro p hp
      rcases List.mem_append.1 hp with hp | hp
      · exact hv p (List.mem_append_left _ hp)
      · rcases List.mem_cons.1 hp with rfl | hp
        · exact hv'
        · exact hv p (List.mem_append_right _ (List.mem_cons_of_mem _ hp)))
    (hn.imp id fun h p hp => by
      rcases List.mem_append.1 hp with hp | hp
      · exact h p (List.mem_cons_of_mem _ (List.mem_append_left _ hp))
      · rcases List.mem_cons.1 hp with rfl | hp
        · exact h _ (List.mem_cons_self ..)
        · exact h p (List.mem_cons_of_mem _ (List.mem_append_right _ (List.mem_cons_of_mem _ hp)))) hr hi
  have hm : ∀ done, A.messageOf env c done f t v = A.messageOf env c done f t v' := fun done => message_equal _ t v v' [] he
  have : A.expand env c [] (before ++ .append f t v :: after) = A.expand env c [] (before ++ .append f t v' :: after) := by
    rw [expand_append, expand_append]
    simp only [HashAlg.expand, hm]
  rw [← this, e2] at e2'
  rw [← Except.ok.inj e2'] at e1'
  exact ⟨rs, e1, e1'⟩

-- +0.0f and -0.0f
example : ∃ rs, times31.toHash.execStmts le64 .default ([] ++ .append default_flavor .f32 0x00000000#32 :: [.call .result]) = .ok rs ∧
    times31.toHash.execStmts le64 .default ([] ++ .append default_flavor .f32 0x80000000#32 :: [.call .result]) = .ok rs := by
  refine user_equal_objects (times31_ok le64) .default trivial [] [.call .result] default_flavor .f32 0x00000000#32 0x80000000#32 ?_ ?_ ?_
    (.inl (times31_null _)) rfl (times31_integral le64)
  · simp only [Equal]; decide
  · intro p hp
    rcases List.mem_cons.1 hp with rfl | hp
    · exact ⟨by simp [wellFormed], by simp [Spec.Valid], by simp [le64]⟩
    · rcases List.mem_singleton.1 hp with rfl; rfl
  · exact ⟨by simp [wellFormed], by simp [Spec.Valid], by simp [le64]⟩

/-- **C55, hmac.** If `Hf` is the function that the user's algorithm H computes, with results of at most block_size bytes, then hmac<H>
constructed from a key of any length computes RFC 2104's HMAC over `Hf`, -/
theorem user_hmac (H : DigestAlg) (env : Env) (L : Requirements H.toHash env) (Hf : List Byte → List Byte)
    (hH : ∀ m, H.toHash.exec env .default [.update (.mem m) m.length, .result] = .ok [Hf m])
    (hlen : ∀ s t r, H.result env s = .ok (t, r) → r.length ≤ H.blockSize)
    (p : Ptr) (n : Nat) (hp : p.Readable n) (ops : List Op) (msg : List Byte) (h : stream ops = some (msg.map .data))
    (hn : L.AcceptsNull ∨ NoNull ops) :
    (Hmac.hmac H).toHash.exec env (.bytes p n) (ops ++ [.result]) = .ok [Spec.hmac Hf H.blockSize (p.bytes n) msg] := by
  have hv : L.machine.value L.machine.init = Hf := by
    funext m
    have h1 := L.implements.exec_message (fun _ => trivial) (fun _ _ => trivial) (c := .default) trivial (stream_once m) (.inr (noNull_once m _))
    have h2 := hH m
    rw [show ([Op.update (.mem m) m.length, .result] : List Op) = [.update (.mem m) m.length] ++ [.result] from rfl, h1] at h2
    exact (List.cons.inj (Except.ok.inj h2)).1
  have h1 := (Hmac.implements L.implements (L.good hlen)).exec_message (fun _ => trivial) (fun _ _ => trivial) (c := .bytes p n) hp h hn
  have h2 := hmac_value L.machine H.blockSize (p.bytes n) msg (fun xs ys => (L.implements.absorb_append _ _ _).symm)
  rw [← hv]
  exact h1.trans (congrArg (fun x => Except.ok [x]) h2)

example (key msg : List Byte) : (Hmac.hmac times31).toHash.exec be32 (.bytes (.mem key) key.length) ([.update (.mem msg) msg.length] ++ [.result])
    = .ok [Spec.hmac (fun m => natLE 8 (times31.loop 0 m).toNat) 16 key msg] := by
  have := user_hmac times31 be32 (times31_ok _) (fun m => natLE 8 (times31.loop 0 m).toNat)
    (fun m => exec_once (A := times31.toHash) (s := (0 : W64)) rfl (times31_update' be32 0 m) rfl)
    (fun (s t : W64) r h => by
      have h : (Except.ok (s + 1, natLE 8 s.toNat) : M (W64 × List Byte)) = .ok (t, r) := h
      cases h
      rw [natLE_length]; decide)
    (.mem key) key.length (by simp [Ptr.Readable]) [.update (.mem msg) msg.length] msg (stream_once msg) (.inl (times31_null _))
  rw [this]
  simp [Ptr.bytes, times31]

/-- and hmac<H> itself meets the requirements. -/
theorem user_hmac_meets_requirements (H : DigestAlg) (env : Env) (L : Requirements H.toHash env)
    (hlen : ∀ s t r, H.result env s = .ok (t, r) → r.length ≤ H.blockSize) :
    ∃ L' : Requirements (Hmac.hmac H).toHash env, L.AcceptsNull → L'.AcceptsNull := by
  refine ⟨(Hmac.implements L.implements (L.good hlen)).requirements (fun _ _ _ _ => trivial) (fun _ => trivial), ?_⟩
  rintro h s ⟨a, r, -⟩
  exact (Hmac.implements L.implements (L.good hlen)).null_ok h s a r

end Hash2
