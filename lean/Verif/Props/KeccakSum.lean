import Verif.Proofs.KeccakSum

/-!
# Property C58: the program KeccakSum

The permutations are any that obey the contract of the interface, `f` and `f12` being the functions on bit strings they compute;
the command line is any list of options and file names.
-/

namespace KeccakSum

open Spec.KeccakSum (Opt Job jobs text complete)

variable {E : Env} {f f12 : Bits → Bits}

/-! ### Encodings -/

/-- **C58.** `hexencode` never writes after the array, returns 0 exactly if the encoding and a zero fit, and then has written both. -/
theorem C58_hex (data : Bytes) (n size : Nat) (hn : n ≤ data.length) :
    ∃ c w, hexencode data n size = some (c, w) ∧ w.length ≤ size ∧ c ≤ 1 ∧ (c = 0 ↔ 2 * n < size) ∧
      (c = 0 → w = Spec.KeccakSum.hex (data.take n) ++ [0]) := hexencode_eq data n size hn

/-- **C58.** `base64encode` likewise (RFC 4648). -/
theorem C58_base64 (data : Bytes) (n size : Nat) (hn : n ≤ data.length) :
    ∃ c w, base64encode data n size = some (c, w) ∧ w.length ≤ size ∧ c ≤ 1 ∧ (c = 0 ↔ 4 * ((n + 2) / 3) < size) ∧
      (c = 0 → w = Spec.KeccakSum.base64 (data.take n) ++ [0]) := base64encode_eq data n size hn

-- the test vectors of RFC 4648, section 10
example : Spec.KeccakSum.base64 (text "foobar") = text "Zm9vYmFy" ∧ Spec.KeccakSum.base64 (text "fooba") = text "Zm9vYmE=" ∧
    Spec.KeccakSum.base64 (text "foob") = text "Zm9vYg==" ∧ Spec.KeccakSum.hex (text "foobar") = text "666f6f626172" := by decide +kernel

example : base64encode (text "fooba") 5 9 = some (0, text "Zm9vYmE=" ++ [0]) ∧ base64encode (text "fooba") 5 8 = some (1, text "Zm9vYmE=") ∧
    base64encode (text "fooba") 5 3 = some (1, text "Zm9") := by decide +kernel

/-! ### The program -/

/-- **C58.** For every command line, the program prints, in order, one line for each string and file (the standard input if there is no
file name): the encoding, in the format selected at that point, of the digest of its contents by the function and with the output length
selected at that point, followed by two spaces and the name; and it returns 0.

Partial: the full property has no restriction on the order of the options and allows 65536 bytes in hexadecimal; then it is false
(`C58_not_reset`, `C58_not_reset_k12`, `C58_hex_limit`).  The block lengths of ParallelHash are those of C15. -/
theorem C58_partial (hE : EnvOk E f f12) (files : Bytes → Bytes) (stdin : Bytes) (l : List Opt)
    (hl : LineOk E files Spec.KeccakSum.default l) (hj : ∀ j ∈ jobs files Spec.KeccakSum.default stdin (complete l), JobOk E j) :
    ∃ items, process E (l.flatMap Opt.words) stdin = some (0, items) ∧
      List.Forall₂ (Printed f f12) (jobs files Spec.KeccakSum.default stdin (complete l)) items := by
  obtain ⟨items, h1, h2⟩ := process_eq hE files l initial Spec.KeccakSum.default stdin false [] (complete l) rel_initial hl
    (by rw [Bool.false_or]; rfl) hj
  exact ⟨items, h1, h2⟩

/-! ### What is not as documented -/

/-- **C58, negation.** `--ph128 --sha3-384` does not select SHA3-384: the program prints an error message and stops, whatever the file. -/
theorem C58_not_reset (name stdin contents : Bytes) (hn : name.head? ≠ some 0x2D) (hf : E.files name = some contents) :
    (∀ files : Bytes → Bytes, jobs files Spec.KeccakSum.default stdin (complete [.ph128, .sha3_384, .file name]) =
      [⟨⟨.keccak 768 [false, true], 384, .hex⟩, if name = text "-" then stdin else files name, name⟩]) ∧
    process E ([.ph128, .sha3_384, .file name].flatMap Opt.words) stdin = some (-1, [.message]) := by
  have hd : name ≠ text "-" := by rintro rfl; exact hn rfl
  have hd' : ¬ name = str "-" := hd
  constructor
  · intro files
    rw [if_neg hd]
    show jobs files (Opt.apply (Opt.apply Spec.KeccakSum.default .ph128) .sha3_384) stdin [.file name] = _
    rw [jobs, if_neg hd]
    rfl
  · have e1 : setOption initial (text "--ph128") = some ⟨⟨2, 1344, 256, 264, 0x1F, some 8192⟩, true⟩ := rfl
    have e2 : setOption ⟨⟨2, 1344, 256, 264, 0x1F, some 8192⟩, true⟩ (text "--sha3-384") =
      some ⟨⟨2, 832, 768, 384, 0x06, some 8192⟩, false⟩ := rfl
    obtain ⟨k1, k2, k3⟩ := name_ok ⟨⟨2, 832, 768, 384, 0x06, some 8192⟩, false⟩ name (Or.inr hn)
    have e3 : processFile E stdin name ⟨2, 832, 768, 384, 0x06, some 8192⟩ false = some (-1, [.message], stdin) := by
      unfold processFile
      rw [if_neg (by decide), if_neg hd', hf]
      rfl
    show processArgs E [text "--ph128", text "--sha3-384", name] initial stdin false [] = _
    unfold processArgs
    simp only [e1]
    unfold processArgs
    simp only [e2]
    unfold processArgs
    simp only [k1, k2, k3, Bool.false_eq_true, if_false, e3, Option.bind_eq_bind, Option.bind_some]
    rfl

/-- **C58, negation.** `--k12 --sha3-256` selects KT128 with 256 bits of output, in hexadecimal. -/
theorem C58_not_reset_k12 (hE : EnvOk E f f12) (name stdin contents : Bytes) (hn : name.head? ≠ some 0x2D)
    (hf : E.files name = some contents) (hl : 8 * contents.length < 2 ^ 64) :
    ∃ d : Bytes, Bits.ofBytes d = Spec.KangarooTwelve f12 128 (Bits.ofBytes contents) [] 256 ∧
      process E ([.k12 true, .sha3_256, .file name].flatMap Opt.words) stdin =
        some (0, [.text (Spec.KeccakSum.hex d ++ text "  " ++ name ++ text "\n")]) := by
  have hd : name ≠ text "-" := by rintro rfl; exact hn rfl
  have e1 : setOption initial (text "--k12") = some ⟨⟨1, 1344, 256, 264, 0x1F, none⟩, true⟩ := rfl
  have e2 : setOption ⟨⟨1, 1344, 256, 264, 0x1F, none⟩, true⟩ (text "--sha3-256") =
    some ⟨⟨1, 1088, 512, 256, 0x06, none⟩, false⟩ := rfl
  obtain ⟨k1, k2, k3⟩ := name_ok ⟨⟨1, 1088, 512, 256, 0x06, none⟩, false⟩ name (Or.inr hn)
  have hr : Rel ⟨⟨1, 1088, 512, 256, 0x06, none⟩, false⟩ ⟨.kt128, 256, .hex⟩ := ⟨rfl, by decide, by decide, rfl, rfl⟩
  obtain ⟨i, p1, d, p2, p3⟩ := processFile_eq hE hr trivial ⟨by decide, fun _ => by decide⟩ stdin name contents (by rw [if_neg hd]; exact hf) hl
  rw [if_neg hd] at p1
  refine ⟨d, p2, ?_⟩
  show processArgs E [text "--k12", text "--sha3-256", name] initial stdin false [] = _
  unfold processArgs
  simp only [e1]
  unfold processArgs
  simp only [e2]
  unfold processArgs
  simp only [k1, k2, k3, Bool.false_eq_true, if_false, p1, Option.bind_eq_bind, Option.bind_some, ne_eq, not_true_eq_false]
  unfold processArgs
  rw [p3]
  rfl

/-- **C58, negation.** The greatest output length that is accepted, 524288 bits, cannot be displayed in hexadecimal, since there is no
room for the zero at the end: the program prints an error message and stops. -/
theorem C58_hex_limit (hE : EnvOk E f f12) (stdin : Bytes) (hl : 8 * stdin.length < 2 ^ 64) :
    (∀ files : Bytes → Bytes, jobs files Spec.KeccakSum.default stdin (complete [.outputBits true (text "524288"), .hex]) =
      [⟨⟨.keccak 256 [true, true, true, true], 524288, .hex⟩, stdin, text "-"⟩]) ∧
    process E ([.outputBits true (text "524288"), .hex].flatMap Opt.words) stdin = some (-1, [.message]) := by
  refine ⟨fun files => rfl, ?_⟩
  obtain ⟨o1, p1, p2⟩ := step_set (E := E) (files := id) rel_initial (.outputBits true (text "524288")) ⟨by
    refine ⟨by decide, ?_⟩
    decide, by decide, by decide, by decide⟩ rfl (by simp)
  obtain ⟨o2, q1, q2⟩ := step_set (E := E) (files := id) p2 .hex trivial rfl (by simp)
  have hb : (Opt.apply (Opt.apply Spec.KeccakSum.default (.outputBits true (text "524288"))) .hex).bits = 524288 := rfl
  obtain ⟨us, hu1, hu2⟩ := readLoop_eq (E := E) o2.specs (stdin.length + 1) stdin (by omega)
  subst hu1
  obtain ⟨i0, i1, out, k1, k2, k3, k4, k5⟩ := hash_spec hE q2 trivial (by rw [hb]) us hl
  rw [hb] at k4
  have hlen : out.length = 65536 := k4
  have hbits := q2.bits
  rw [hb] at hbits
  have hbase : o2.base64 = false := q2.format
  obtain ⟨c, w, r1, -, r2, r3, -⟩ := hexencode_eq out 65536 (bufferSize * 2) (by omega)
  have hc : c ≠ 0 := by intro e; exact absurd (r3.1 e) (by unfold bufferSize; omega)
  have e1 := p1 (Opt.hex.words ++ []) us.flatten false []
  have e2 := q1 [] us.flatten false []
  show processArgs E (Opt.words (.outputBits true (text "524288")) ++ (Opt.hex.words ++ [])) initial us.flatten false [] = _
  rw [e1, e2]
  unfold processArgs finish processFile
  have hlim : ¬ o2.specs.hashbitlen.toNat > bufferSize * 8 := by rw [hbits]; unfold bufferSize; omega
  have hpc : processContents E o2.specs o2.base64 us.flatten (str "-") = some (-1, [.message]) := by
    unfold processContents
    simp only [k1, Option.bind_eq_bind, Option.bind_some, hu2, k2, k3]
    unfold printDigest
    have el : (o2.specs.hashbitlen.toNat + 7) % 2 ^ 32 / 8 = 65536 := by rw [hbits]; decide
    simp only [el, hbase, Bool.false_eq_true, if_false, r1, Option.bind_eq_bind, Option.bind_some, ne_eq, hc, not_false_eq_true, if_true]
  rw [if_neg hlim, if_pos rfl, hpc]
  rfl

/-! ### The hypotheses are met -/

/-- A machine with a toy permutation, one file and parallel implementations. -/
def toyEnv (mem : HashInst × KtInst × PhInst) : Env where
  P24 := SP800185.toy1600
  P12 := SP800185.toy1600
  ktCfgs := fun _ => [⟨4, .fastLoop⟩, ⟨2, .loop⟩]
  phCfgs := fun _ => [⟨4, .fastLoop⟩, ⟨2, .loop⟩]
  mem := mem
  files := fun n => if n = text "a.txt" then some (text "contents of the file") else none

/-- `--sha3-256 --string abc --k12 -n 512 --hex - --ph128 -B 16 a.txt` -/
def toyLine : List Opt := [.sha3_256, .string (text "abc"), .k12 true, .outputBits true (text "512"), .hex, .file (text "-"), .ph128,
  .block (text "16"), .file (text "a.txt")]

theorem toyLine_jobs (stdin : Bytes) : jobs (fun _ => text "contents of the file") Spec.KeccakSum.default stdin (complete toyLine) =
    [⟨⟨.keccak 512 [false, true], 256, .hex⟩, text "abc", text "\"abc\""⟩,
     ⟨⟨.kt128, 512, .hex⟩, stdin, text "-"⟩,
     ⟨⟨.parallelHash 128 16, 264, .base64⟩, text "contents of the file", text "a.txt"⟩] := rfl

theorem toyEnv_ok (mem : HashInst × KtInst × PhInst) : ∃ f, EnvOk (toyEnv mem) f f := by
  obtain ⟨f, hf⟩ := SP800185.exists_bitLevel SP800185.toy1600
  refine ⟨f, SP800185.toy1600_valid, rfl, hf, SP800185.toy1600_valid, rfl, hf, ?_⟩
  intro cfg h
  simp only [toyEnv, List.mem_cons, List.not_mem_nil, or_false] at h
  rcases h with rfl | rfl <;> exact ⟨by decide, by decide, by simp⟩

example (mem : HashInst × KtInst × PhInst) : ∃ f items, process (toyEnv mem) [text "--sha3-256", text "--string", text "abc", text "--k12",
    text "-n", text "512", text "--hex", text "-", text "--ph128", text "-B", text "16", text "a.txt"] (text "standard input") =
      some (0, items) ∧ List.Forall₂ (Printed f f)
    [⟨⟨.keccak 512 [false, true], 256, .hex⟩, text "abc", text "\"abc\""⟩,
     ⟨⟨.kt128, 512, .hex⟩, text "standard input", text "-"⟩,
     ⟨⟨.parallelHash 128 16, 264, .base64⟩, text "contents of the file", text "a.txt"⟩] items := by
  obtain ⟨f, hE⟩ := toyEnv_ok mem
  obtain ⟨items, h1, h2⟩ := C58_partial hE (fun _ => text "contents of the file") (text "standard input") toyLine (by
    refine ⟨⟨256, [true, true, true, true], rfl⟩, trivial, trivial, ⟨⟨by decide, by decide⟩, by decide, by decide, by decide⟩, trivial,
      Or.inl rfl, trivial, ⟨⟨by decide, by decide⟩, by decide, by decide⟩, Or.inr ⟨by decide, rfl⟩, trivial⟩) (by
    rw [toyLine_jobs]
    intro j hj
    simp only [List.mem_cons, List.not_mem_nil, or_false] at hj
    rcases hj with rfl | rfl | rfl
    · exact ⟨trivial, ⟨by decide, fun _ => by decide⟩, by decide⟩
    · exact ⟨trivial, ⟨by decide, fun _ => by decide⟩, by decide⟩
    · refine ⟨⟨by decide, ⟨4, by decide⟩, ?_⟩, ⟨by decide, fun h => by cases h⟩, by decide⟩
      intro cfg h
      simp only [toyEnv, List.mem_cons, List.not_mem_nil, or_false] at h
      rcases h with rfl | rfl <;> simp [SP800185.rateBytes])
  rw [toyLine_jobs] at h2
  exact ⟨f, items, h1, h2⟩

end KeccakSum
