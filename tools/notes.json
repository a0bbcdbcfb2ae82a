{
 "C33": {
  "note": "Little-endian targets (the implementation's own); randombytes and the addresses from malloc arbitrary, malloc assumed to succeed. Decryption: candidate plaintext and length exact; the return value is characterised exactly (32-bit digest, see C34)."
 },
 "C34": {
  "note": "Negative result: a fixed tag difference is accepted for every key, nonce, data and masks."
 },
 "C35": {
  "note": "Any number of shares; the map from random words to any n-1 shares is a bijection for every data."
 },
 "C36": {
  "note": "esp32 modelled with unsigned long of any width; the partial-block overlap restriction for decryption is necessary (C43)"
 },
 "C31": {
  "note": "Negative result: the theorem exhibits the failure on big-endian targets."
 },
 "C32": {
  "note": "Negative result about the API: unverified plaintext is written."
 },
 "C18": {
  "note": "Injective for customization strings below 2^61 bytes; C18_bound_needed shows the bound is necessary."
 },
 "C42": {
  "note": "negative result: defect of esp32 for lengths >= 2^w"
 },
 "C43": {
  "note": "negative result: defect of esp32 in in-place decryption"
 },
 "C44": {
  "note": "AEAD of neon; alignment and length restrictions are necessary (C45, C46). Hash/XOF of neon are in the registry (C14, C15, ...)"
 },
 "C45": {
  "note": "negative result: alignment fault of vldm/vstm"
 },
 "C46": {
  "note": "negative result: the borrow is lost (sub instead of subs)"
 },
 "C47": {
  "note": "negative result: padding index of src/avr/hash.c"
 },
 "C48": {
  "note": "negative result: padding index of src/avr/prf.c"
 },
 "C49": {
  "note": "negative result: digests/tags differ from the standard (concrete counterexamples to the contracts, through the exact characterisation of what the code computes)"
 },
 "C50": {
  "note": "avr hash.c/prf.c/prfs.c; AEAD of avr and all of avr_lowsize are in the registry"
 },
 "C51": {
  "note": "lengths < 2^31 and word alignment (of buffers with at least one full block) are necessary (C56)"
 },
 "C52": {
  "note": "if the ciphertext length is not a multiple of 4 the code reads 1-3 bytes past the tag; the theorem requires them to be readable"
 },
 "C53": {
  "note": "negative result: XOR-folded tag comparison"
 },
 "C54": {
  "note": "negative result: partial last block is read after the plaintext was written"
 },
 "C57": {
  "note": "negative result: three registered implementations follow the pre-standard algorithm; exact specification in Spec/Ascon128a, checked against the published Ascon-128a test vectors in Test/Kat128a"
 },
 "C56": {
  "note": "alignment: in the model lw/sw fault on misaligned addresses (the RISC-V base ISA lets an implementation do so)"
 },
 "C58": {
  "note": "specification Spec/AsconHash12, checked against published v1.2 test vectors in Test/KatHash12; window overflow exceptions are not modelled"
 },
 "C59": {
  "note": "negative result"
 },
 "C60": {
  "note": "specification Spec/Ascon128a, checked against published v1.2 test vectors in Test/Kat128a; window overflow exceptions are not modelled"
 },
 "C61": {
  "note": "negative result"
 },
 "C62": {
  "note": "registry implementations, ref CXOF, esp32, neon AEAD and the masked implementation (each call with its own malloc blocks and its own randombytes stream); interleaving semantics C/Threads.lean, sequentially consistent memory with byte-sized steps (the calls are data-race free, so by DRF this is what C11 gives); the asm_* files are not covered"
 },
 "C63": {
  "note": "same scope as C62; after an in-place call has started its input is gone, so the retry theorem requires outputs and inputs to be disjoint"
 },
 "C64": {
  "note": "first order, value-based probes (no transitions, glitches or couplings between registers); the phases the design leaves unmasked (associated data, message) and the key addition right after the first permutation (its masks are those of the permutation input, no independence can be claimed) are outside; two probes are shown to leak (C64_two_probes_leak)"
 },
 "C65": {
  "note": "source-level accesses, before any compiler; `*mlen`, which src/aead.c and its variants read back after writing it, is a local variable in the model, and so is the key copy of src/avr/prf.c that is loaded twice and used once"
 },
 "C66": {
  "note": "the reads return arbitrary values (the machine view of what is a data race for the C standard); outputs are disjoint from the inputs and not shared: the generic code reads `*mlen` back after writing it, so a party that can write the length variable is not covered"
 },
 "C78": {
  "note": "value-based probes; assumes the state uniformly shared when the associated data are absorbed (C74 gives this for the result of a permutation on a uniformly shared state; the key addition at the end of the initialisation, with masks not independent of the state, is between them and outside, except where a refresh follows); the absorption of ciphertext in decryption is in C80; unequal numbers of shares within a phase are outside; what MSTORE computes from single shares is a function of a value already counted"
 },
 "C80": {
  "note": "value-based probes; the masks of the ciphertext are random (what generate_shares draws); every length, the last word through MMASK and MXORAND; with fewer shares of the ciphertext the property fails (C79)"
 },
 "C81": {
  "note": "negative: a consequence of the mode, proved of the code through C01 and C02; the later blocks of two messages under one nonce and the tag are not related by it"
 },
 "C82": {
  "note": "negative: shows that the overlap condition of C08 is needed; distances below 16 are not covered"
 },
 "C83": {
  "note": "Distances d >= 16 (at least one block). For 1..15 the result depends on the order of the accesses within a block and is not described."
 },
 "C84": {
  "note": "All implementations of the registry; the overlap of input and output is still restricted as in C08 (C82, C83 for the rest)."
 },
 "C85": {
  "note": "The negative part is existential in the call and covers all 15 distances; it is about ref and opt64. For d < 8, opt8 gives a third string on that call (evaluated, not proved)."
 }
}