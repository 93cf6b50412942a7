import Verif.Props.Standards
/-
C69: the truncated variants of SHA-256 and SHA-512.
-/
namespace Hash2
open Spec

/-- the class, its base algorithm (lengths modulo 2^64 bits for SHA-512), initial value, and size of the digest: FIPS 180-4 sections 5.3, 6.3, 6.5 to 6.7 -/
inductive TruncatedVariant : DigestName → {σ : Type} → Md σ → σ → Nat → Prop
  | sha2_224 : TruncatedVariant .sha2_224 SHA2.sha256 SHA2.iv224 28
  | sha2_384 : TruncatedVariant .sha2_384 SHA2.sha512.mod64 SHA2.iv384 48
  | sha2_512_224 : TruncatedVariant .sha2_512_224 SHA2.sha512.mod64 (SHA2.ivT SHA2.name224) 28
  | sha2_512_256 : TruncatedVariant .sha2_512_256 SHA2.sha512.mod64 (SHA2.ivT SHA2.name256) 32

private theorem hash32 (iv : SHA2.St 32) (n : Nat) (h : n ≤ 32) (m : List Byte) : (SHA2.md32 iv n).hash m = ((SHA2.md32 iv 32).hash m).take n := by
  show List.take n (SHA2.encode ((SHA2.md32 iv 32).chain (m ++ (SHA2.md32 iv 32).pad m.length)))
    = List.take n (List.take 32 (SHA2.encode ((SHA2.md32 iv 32).chain (m ++ (SHA2.md32 iv 32).pad m.length))))
  rw [List.take_take, Nat.min_eq_left h]

private theorem hash64 (iv : SHA2.St 64) (n : Nat) (h : n ≤ 64) (m : List Byte) : (SHA2.md64 iv n).mod64.hash m = ((SHA2.md64 iv 64).mod64.hash m).take n := by
  show List.take n (SHA2.encode ((SHA2.md64 iv 64).mod64.chain (m ++ (SHA2.md64 iv 64).mod64.pad m.length)))
    = List.take n (List.take 64 (SHA2.encode ((SHA2.md64 iv 64).mod64.chain (m ++ (SHA2.md64 iv 64).mod64.pad m.length))))
  rw [List.take_take, Nat.min_eq_left h]

private theorem run_take {σ : Type} (D E : Md σ) (n : Nat) (hp : D.pad = E.pad) (hh : ∀ m, D.hash m = (E.hash m).take n) (ts : List Tok) :
    ∀ l : List Byte, (D.machine.run l ts).2 = (E.machine.run l ts).2.map (List.take n) := by
  induction ts with
  | nil => intro l; rfl
  | cons t ts ih =>
    intro l
    cases t with
    | data b => exact ih (l ++ [b])
    | fin =>
      show D.hash l :: (D.machine.run (l ++ D.pad l.length) ts).2 = (E.hash l).take n :: ((E.machine.run (l ++ E.pad l.length) ts).2.map (List.take n))
      rw [hh, hp, ih]

private theorem start_pad {σ : Type} (D E : Md σ) (hp : D.pad = E.pad) (c : Ctor) : (c.start D.machine : List Byte) = c.start E.machine := by
  cases c with
  | default => rfl
  | seed k => show (if k = 0 then [] else natLE 8 k.toNat ++ D.pad 8) = if k = 0 then [] else natLE 8 k.toNat ++ E.pad 8; rw [hp]
  | bytes p n => show (if p.bytes n = [] then [] else p.bytes n ++ D.pad _) = if p.bytes n = [] then [] else p.bytes n ++ E.pad _; rw [hp]

private theorem variant {d : DigestName} {σ : Type} (T E : Md σ) (n : Nat) (hm : d.machine = T.machine) (hp : T.pad = E.pad)
    (hh : ∀ m, T.hash m = (E.hash m).take n) (env : Env) (c : Ctor) (hc : c.Valid) (ops : List Op) (ts : List Tok) (hs : stream ops = some ts)
    (hn : env.loops = true ∨ NoNull ops) :
    (AlgName.digest d).impl.exec env c ops = .ok ((E.machine.run (c.start E.machine) ts).2.map (List.take n)) := by
  refine (AlgName.exec_ok (a := .digest d) hc hs (hn.imp (.inr ·) id) trivial).trans (congrArg Except.ok ?_)
  have g : ∀ M : Machine (List Byte), M = T.machine → (M.run (c.start M) ts).2 = (T.machine.run (c.start T.machine) ts).2 := by rintro _ rfl; rfl
  refine (g _ hm).trans ?_
  refine (run_take T E n hp hh ts _).trans ?_
  rw [start_pad T E hp c]
  rfl

private theorem variant32 {d : DigestName} (iv : SHA2.St 32) (n : Nat) (h : n ≤ 32) (hm : d.machine = (SHA2.md32 iv n).machine) (env : Env) (c : Ctor)
    (hc : c.Valid) (ops : List Op) (ts : List Tok) (hs : stream ops = some ts) (hn : env.loops = true ∨ NoNull ops) :
    (AlgName.digest d).impl.exec env c ops
      = .ok ((({ SHA2.sha256 with iv := iv } : Md _).machine.run (c.start ({ SHA2.sha256 with iv := iv } : Md _).machine) ts).2.map (List.take n)) :=
  variant (SHA2.md32 iv n) ({ SHA2.sha256 with iv := iv } : Md _) n hm rfl (hash32 iv n h) env c hc ops ts hs hn

private theorem variant64 {d : DigestName} (iv : SHA2.St 64) (n : Nat) (h : n ≤ 64) (hm : d.machine = (SHA2.md64 iv n).mod64.machine) (env : Env) (c : Ctor)
    (hc : c.Valid) (ops : List Op) (ts : List Tok) (hs : stream ops = some ts) (hn : env.loops = true ∨ NoNull ops) :
    (AlgName.digest d).impl.exec env c ops
      = .ok ((({ SHA2.sha512.mod64 with iv := iv } : Md _).machine.run (c.start ({ SHA2.sha512.mod64 with iv := iv } : Md _).machine) ts).2.map (List.take n)) :=
  variant (SHA2.md64 iv n).mod64 ({ SHA2.sha512.mod64 with iv := iv } : Md _) n hm rfl (hash64 iv n h) env c hc ops ts hs hn

/-- **C69, the true part.** The class does what the base algorithm with another initial value does - after any constructor, through any history -
and every result is truncated. -/
theorem truncated_variants_partial (d : DigestName) (σ : Type) (D : Md σ) (iv : σ) (n : Nat) (hd : TruncatedVariant d D iv n)
    (env : Env) (c : Ctor) (hc : c.Valid) (ops : List Op) (ts : List Tok) (hs : stream ops = some ts) (hn : env.loops = true ∨ NoNull ops) :
    (AlgName.digest d).impl.exec env c ops
      = .ok ((({ D with iv := iv } : Md σ).machine.run (c.start ({ D with iv := iv } : Md σ).machine) ts).2.map (List.take n)) := by
  cases hd with
  | sha2_224 => exact variant32 _ 28 (by decide) rfl env c hc ops ts hs hn
  | sha2_384 => exact variant64 _ 48 (by decide) rfl env c hc ops ts hs hn
  | sha2_512_224 => exact variant64 _ 28 (by decide) rfl env c hc ops ts hs hn
  | sha2_512_256 => exact variant64 _ 32 (by decide) rfl env c hc ops ts hs hn

private theorem sha224_run : (AlgName.digest .sha2_224).impl.exec le64 .default ([] ++ [.result]) = .ok [natBE 28 0xd14a028c2a3a2bc9476102bb288234c415a2b01f828ea62ac5b3e42f] := of_check _ (by decide +kernel)
private theorem sha224_std : (AlgName.digest .sha2_224).impl.exec le64 .default ([] ++ [.result]) = .ok [SHA2.sha224.hash []] := sha224_fips180 le64 [] [] rfl (.inr (by intro n; simp))
private theorem sha224_same (x : List Byte) (h : (AlgName.digest .sha2_224).impl.exec le64 .default ([] ++ [.result]) = .ok [x]) : SHA2.sha224.hash [] = x :=
  same_result sha224_std h
private theorem sha224_empty : SHA2.sha224.hash [] = natBE 28 0xd14a028c2a3a2bc9476102bb288234c415a2b01f828ea62ac5b3e42f := sha224_same _ sha224_run
private theorem sha256_run : (AlgName.digest .sha2_256).impl.exec le64 .default ([] ++ [.result]) = .ok [natBE 32 0xe3b0c44298fc1c149afbf4c8996fb92427ae41e4649b934ca495991b7852b855] := of_check _ (by decide +kernel)
private theorem sha256_std : (AlgName.digest .sha2_256).impl.exec le64 .default ([] ++ [.result]) = .ok [SHA2.sha256.hash []] := sha256_fips180 le64 [] [] rfl (.inr (by intro n; simp))
private theorem sha256_same (x : List Byte) (h : (AlgName.digest .sha2_256).impl.exec le64 .default ([] ++ [.result]) = .ok [x]) : SHA2.sha256.hash [] = x :=
  same_result sha256_std h
private theorem sha256_empty : SHA2.sha256.hash [] = natBE 32 0xe3b0c44298fc1c149afbf4c8996fb92427ae41e4649b934ca495991b7852b855 := sha256_same _ sha256_run
private theorem sha384_run : (AlgName.digest .sha2_384).impl.exec le64 .default ([] ++ [.result]) = .ok [natBE 48 0x38b060a751ac96384cd9327eb1b1e36a21fdb71114be07434c0cc7bf63f6e1da274edebfe76f65fbd51ad2f14898b95b] := of_check _ (by decide +kernel)
private theorem sha384_std : (AlgName.digest .sha2_384).impl.exec le64 .default ([] ++ [.result]) = .ok [SHA2.sha384.hash []] := sha384_fips180 le64 [] [] rfl (by decide) (.inr (by intro n; simp))
private theorem sha384_same (x : List Byte) (h : (AlgName.digest .sha2_384).impl.exec le64 .default ([] ++ [.result]) = .ok [x]) : SHA2.sha384.hash [] = x :=
  same_result sha384_std h
private theorem sha384_empty : SHA2.sha384.hash [] = natBE 48 0x38b060a751ac96384cd9327eb1b1e36a21fdb71114be07434c0cc7bf63f6e1da274edebfe76f65fbd51ad2f14898b95b := sha384_same _ sha384_run
private theorem sha512_run : (AlgName.digest .sha2_512).impl.exec le64 .default ([] ++ [.result]) = .ok [natBE 64 0xcf83e1357eefb8bdf1542850d66d8007d620e4050b5715dc83f4a921d36ce9ce47d0d13c5d85f2b0ff8318d2877eec2f63b931bd47417a81a538327af927da3e] := of_check _ (by decide +kernel)
private theorem sha512_std : (AlgName.digest .sha2_512).impl.exec le64 .default ([] ++ [.result]) = .ok [SHA2.sha512.hash []] := sha512_fips180 le64 [] [] rfl (by decide) (.inr (by intro n; simp))
private theorem sha512_same (x : List Byte) (h : (AlgName.digest .sha2_512).impl.exec le64 .default ([] ++ [.result]) = .ok [x]) : SHA2.sha512.hash [] = x :=
  same_result sha512_std h
private theorem sha512_empty : SHA2.sha512.hash [] = natBE 64 0xcf83e1357eefb8bdf1542850d66d8007d620e4050b5715dc83f4a921d36ce9ce47d0d13c5d85f2b0ff8318d2877eec2f63b931bd47417a81a538327af927da3e := sha512_same _ sha512_run
private theorem sha512_224_run : (AlgName.digest .sha2_512_224).impl.exec le64 .default ([] ++ [.result]) = .ok [natBE 28 0x6ed0dd02806fa89e25de060c19d3ac86cabb87d6a0ddd05c333b84f4] := of_check _ (by decide +kernel)
private theorem sha512_224_std : (AlgName.digest .sha2_512_224).impl.exec le64 .default ([] ++ [.result]) = .ok [SHA2.sha512_224.hash []] := sha512_224_fips180 le64 [] [] rfl (by decide) (.inr (by intro n; simp))
private theorem sha512_224_same (x : List Byte) (h : (AlgName.digest .sha2_512_224).impl.exec le64 .default ([] ++ [.result]) = .ok [x]) : SHA2.sha512_224.hash [] = x :=
  same_result sha512_224_std h
private theorem sha512_224_empty : SHA2.sha512_224.hash [] = natBE 28 0x6ed0dd02806fa89e25de060c19d3ac86cabb87d6a0ddd05c333b84f4 := sha512_224_same _ sha512_224_run
private theorem sha512_256_run : (AlgName.digest .sha2_512_256).impl.exec le64 .default ([] ++ [.result]) = .ok [natBE 32 0xc672b8d1ef56ed28ab87c3622c5114069bdd3ad7b8f9737498d0c01ecef0967a] := of_check _ (by decide +kernel)
private theorem sha512_256_std : (AlgName.digest .sha2_512_256).impl.exec le64 .default ([] ++ [.result]) = .ok [SHA2.sha512_256.hash []] := sha512_256_fips180 le64 [] [] rfl (by decide) (.inr (by intro n; simp))
private theorem sha512_256_same (x : List Byte) (h : (AlgName.digest .sha2_512_256).impl.exec le64 .default ([] ++ [.result]) = .ok [x]) : SHA2.sha512_256.hash [] = x :=
  same_result sha512_256_std h
private theorem sha512_256_empty : SHA2.sha512_256.hash [] = natBE 32 0xc672b8d1ef56ed28ab87c3622c5114069bdd3ad7b8f9737498d0c01ecef0967a := sha512_256_same _ sha512_256_run
private theorem ripemd128_run : (AlgName.digest .ripemd_128).impl.exec le64 .default ([] ++ [.result]) = .ok [natBE 16 0xcdf26213a150dc3ecb610f18f6b38b46] := of_check _ (by decide +kernel)
private theorem ripemd128_std : (AlgName.digest .ripemd_128).impl.exec le64 .default ([] ++ [.result]) = .ok [RIPEMD.ripemd128.hash []] := ripemd128_paper le64 [] [] rfl
private theorem ripemd128_same (x : List Byte) (h : (AlgName.digest .ripemd_128).impl.exec le64 .default ([] ++ [.result]) = .ok [x]) : RIPEMD.ripemd128.hash [] = x :=
  same_result ripemd128_std h
private theorem ripemd128_empty : RIPEMD.ripemd128.hash [] = natBE 16 0xcdf26213a150dc3ecb610f18f6b38b46 := ripemd128_same _ ripemd128_run
private theorem ripemd160_run : (AlgName.digest .ripemd_160).impl.exec le64 .default ([] ++ [.result]) = .ok [natBE 20 0x9c1185a5c5e9fc54612808977ee8f548b2258d31] := of_check _ (by decide +kernel)
private theorem ripemd160_std : (AlgName.digest .ripemd_160).impl.exec le64 .default ([] ++ [.result]) = .ok [RIPEMD.ripemd160.hash []] := ripemd160_paper le64 [] [] rfl
private theorem ripemd160_same (x : List Byte) (h : (AlgName.digest .ripemd_160).impl.exec le64 .default ([] ++ [.result]) = .ok [x]) : RIPEMD.ripemd160.hash [] = x :=
  same_result ripemd160_std h
private theorem ripemd160_empty : RIPEMD.ripemd160.hash [] = natBE 20 0x9c1185a5c5e9fc54612808977ee8f548b2258d31 := ripemd160_same _ ripemd160_run

/-- **C69 fails** as documented ("The message digest is obtained by truncating the final results of the SHA-256 algorithm", sha2.adoc;
"RIPEMD-128 is a truncated variant of RIPEMD-160", hashing_bytes.adoc): already for the empty message the digests differ within the first bytes. -/
theorem not_truncated (env : Env) (d e : DigestName)
    (h : (d, e) ∈ [(DigestName.sha2_224, DigestName.sha2_256), (.sha2_384, .sha2_512), (.sha2_512_224, .sha2_512), (.sha2_512_256, .sha2_512), (.ripemd_128, .ripemd_160)]) :
    ∃ r r' : List Byte, (AlgName.digest d).impl.exec env .default [.result] = .ok [r] ∧ (AlgName.digest e).impl.exec env .default [.result] = .ok [r'] ∧
      r ≠ r'.take r.length := by
  have nn : NoNull ([] : List Op) := fun n h => by cases h
  simp only [List.mem_cons, List.not_mem_nil, or_false, Prod.mk.injEq] at h
  rcases h with ⟨rfl, rfl⟩ | ⟨rfl, rfl⟩ | ⟨rfl, rfl⟩ | ⟨rfl, rfl⟩ | ⟨rfl, rfl⟩
  · exact ⟨_, _, sha224_fips180 env [] [] rfl (.inr nn), sha256_fips180 env [] [] rfl (.inr nn), by rw [sha224_empty, sha256_empty]; decide⟩
  · exact ⟨_, _, sha384_fips180 env [] [] rfl (by decide) (.inr nn), sha512_fips180 env [] [] rfl (by decide) (.inr nn), by rw [sha384_empty, sha512_empty]; decide⟩
  · exact ⟨_, _, sha512_224_fips180 env [] [] rfl (by decide) (.inr nn), sha512_fips180 env [] [] rfl (by decide) (.inr nn), by rw [sha512_224_empty, sha512_empty]; decide⟩
  · exact ⟨_, _, sha512_256_fips180 env [] [] rfl (by decide) (.inr nn), sha512_fips180 env [] [] rfl (by decide) (.inr nn), by rw [sha512_256_empty, sha512_empty]; decide⟩
  · exact ⟨_, _, ripemd128_paper env [] [] rfl, ripemd160_paper env [] [] rfl, by rw [ripemd128_empty, ripemd160_empty]; decide⟩

example (env : Env) : (AlgName.digest .sha2_224).impl.exec env (.seed 7) [.update (.mem abc) 3, .result, .result] =
    .ok ((({ SHA2.sha256 with iv := SHA2.iv224 } : Md _).machine.run (Ctor.start ({ SHA2.sha256 with iv := SHA2.iv224 } : Md _).machine (.seed 7))
      [.data 0x61, .data 0x62, .data 0x63, .fin, .fin]).2.map (List.take 28)) :=
  truncated_variants_partial .sha2_224 _ SHA2.sha256 SHA2.iv224 28 .sha2_224 env (.seed 7) trivial _ _ rfl (.inr (by intro n; simp))

end Hash2
