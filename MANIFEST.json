{
 "claims": [
  {
   "property": "C01",
   "status": "proved",
   "theorems": [
    "Ascon.Props.C01_ref_encrypt_computes_aead128",
    "Ascon.Props.C01_encrypt_computes_aead128"
   ],
   "note": ""
  },
  {
   "property": "C02",
   "status": "proved",
   "theorems": [
    "Ascon.Props.C02_ref_decrypt_computes_aead128",
    "Ascon.Props.C02_decrypt_computes_aead128"
   ],
   "note": ""
  },
  {
   "property": "C03",
   "status": "proved",
   "theorems": [
    "Ascon.Props.C03_round_trip"
   ],
   "note": ""
  },
  {
   "property": "C04",
   "status": "proved",
   "theorems": [
    "Ascon.Props.C04_accepts_only_genuine",
    "Ascon.Props.C04_modified_tag_rejected"
   ],
   "note": ""
  },
  {
   "property": "C05",
   "status": "proved",
   "theorems": [
    "Ascon.Props.C05_short_ciphertext_rejected"
   ],
   "note": ""
  },
  {
   "property": "C06",
   "status": "proved",
   "theorems": [
    "Ascon.Props.C06_encrypt_return_and_length",
    "Ascon.Props.C06_decrypt_return_and_length"
   ],
   "note": ""
  },
  {
   "property": "C07",
   "status": "proved",
   "theorems": [
    "Ascon.Props.C07_encrypt_safe",
    "Ascon.Props.C07_decrypt_safe"
   ],
   "note": ""
  },
  {
   "property": "C08",
   "status": "proved",
   "theorems": [
    "Ascon.Props.C08_encrypt_in_place",
    "Ascon.Props.C08_decrypt_in_place",
    "Ascon.Props.C08_encrypt_overlap"
   ],
   "note": ""
  },
  {
   "property": "C09",
   "status": "proved",
   "theorems": [
    "Ascon.Props.C09_encrypt_constant_time",
    "Ascon.Props.C09_decrypt_constant_time"
   ],
   "note": ""
  },
  {
   "property": "C10",
   "status": "proved",
   "theorems": [
    "Ascon.Props.C10_encrypt_implementations_agree",
    "Ascon.Props.C10_decrypt_implementations_agree",
    "Ascon.Props.C10_short_implementations_agree"
   ],
   "note": ""
  },
  {
   "property": "C11",
   "status": "proved",
   "theorems": [
    "Ascon.Props.C11_encrypt_injective",
    "Ascon.Props.C11_encrypt_online"
   ],
   "note": ""
  },
  {
   "property": "C12",
   "status": "proved",
   "theorems": [
    "Ascon.Props.C12_permutation_bijective"
   ],
   "note": ""
  },
  {
   "property": "C13",
   "status": "proved",
   "theorems": [
    "Ascon.Props.C13_all_permutations_agree",
    "Ascon.Props.C13_representation_bijective"
   ],
   "note": ""
  },
  {
   "property": "C14",
   "status": "proved",
   "theorems": [
    "Ascon.Props.C14_hash256"
   ],
   "note": ""
  },
  {
   "property": "C15",
   "status": "proved",
   "theorems": [
    "Ascon.Props.C15_xof128",
    "Ascon.Props.C15_crypto_hash_xof128"
   ],
   "note": ""
  },
  {
   "property": "C16",
   "status": "proved",
   "theorems": [
    "Ascon.Props.C16_xof_prefix",
    "Ascon.Props.C16_cxof_prefix",
    "Ascon.Props.C16_prf_prefix",
    "Ascon.Props.C16_hash_not_xof_truncation"
   ],
   "note": ""
  },
  {
   "property": "C17",
   "status": "proved",
   "theorems": [
    "Ascon.Props.C17_cxof128",
    "Ascon.Props.C17_crypto_hash_cxof128"
   ],
   "note": ""
  },
  {
   "property": "C18",
   "status": "proved",
   "theorems": [
    "Ascon.Props.C18_cxof_encoding_injective",
    "Ascon.Props.C18_bound_needed"
   ],
   "note": "Injective for customization strings below 2^61 bytes; C18_bound_needed shows the bound is necessary."
  },
  {
   "property": "C19",
   "status": "proved",
   "theorems": [
    "Ascon.Props.C19_padding_injective",
    "Ascon.Props.C19_prf_padding_injective"
   ],
   "note": ""
  },
  {
   "property": "C20",
   "status": "proved",
   "theorems": [
    "Ascon.Props.C20_hash256_safe",
    "Ascon.Props.C20_xof128_safe",
    "Ascon.Props.C20_ascon_xof_safe",
    "Ascon.Props.C20_cxof_safe"
   ],
   "note": ""
  },
  {
   "property": "C21",
   "status": "proved",
   "theorems": [
    "Ascon.Props.C21_hash256_agree",
    "Ascon.Props.C21_xof128_agree"
   ],
   "note": ""
  },
  {
   "property": "C22",
   "status": "proved",
   "theorems": [
    "Ascon.Props.C22_iv_tables",
    "Ascon.Props.C22_ivs_used"
   ],
   "note": ""
  },
  {
   "property": "C23",
   "status": "proved",
   "theorems": [
    "Ascon.Props.C23_mac_auth",
    "Ascon.Props.C23_mac_verify",
    "Ascon.Props.C23_auth_then_verify",
    "Ascon.Props.C23_mac_agree",
    "Ascon.Props.C23_mac_prf"
   ],
   "note": ""
  },
  {
   "property": "C24",
   "status": "proved",
   "theorems": [
    "Ascon.Props.C24_prf",
    "Ascon.Props.C24_prf_auth_verify"
   ],
   "note": ""
  },
  {
   "property": "C25",
   "status": "proved",
   "theorems": [
    "Ascon.Props.C25_prfShort",
    "Ascon.Props.C25_prfShort_auth_verify",
    "Ascon.Props.C25_prfShort_inputs_distinct"
   ],
   "note": ""
  },
  {
   "property": "C26",
   "status": "proved",
   "theorems": [
    "Ascon.Props.C26_verify_constant_time",
    "Ascon.Props.C26_verify_safe"
   ],
   "note": ""
  },
  {
   "property": "C27",
   "status": "proved",
   "theorems": [
    "Ascon.Props.C27_prf_constant_time",
    "Ascon.Props.C27_hash_constant_time"
   ],
   "note": ""
  },
  {
   "property": "C28",
   "status": "proved",
   "theorems": [
    "Ascon.Props.C28_algorithms_domain_separated"
   ],
   "note": ""
  },
  {
   "property": "C29",
   "status": "proved",
   "theorems": [
    "Ascon.Props.C29_bi32_faithful",
    "Ascon.Props.C29_bi8_faithful"
   ],
   "note": ""
  },
  {
   "property": "C30",
   "status": "proved",
   "theorems": [
    "Ascon.Props.C30_encrypt_endian_independent",
    "Ascon.Props.C30_decrypt_endian_independent",
    "Ascon.Props.C30_hash_endian_independent",
    "Ascon.Props.C30_mac_endian_independent"
   ],
   "note": ""
  },
  {
   "property": "C31",
   "status": "proved",
   "theorems": [
    "Ascon.Props.C31_bi32_wrong_on_big_endian"
   ],
   "note": "Negative result: the theorem exhibits the failure on big-endian targets."
  },
  {
   "property": "C32",
   "status": "proved",
   "theorems": [
    "Ascon.Props.C32_unverified_plaintext_released"
   ],
   "note": "Negative result about the API: unverified plaintext is written."
  },
  {
   "property": "C33",
   "status": "proved",
   "theorems": [
    "Ascon.Masked.C33_encrypt_masked_correct",
    "Ascon.Masked.C33_decrypt_masked_output",
    "Ascon.Masked.C33_decrypt_masked_genuine",
    "Ascon.Masked.C33_decrypt_masked_short"
   ],
   "note": "Little-endian targets (the implementation's own); randombytes and the addresses from malloc arbitrary, malloc assumed to succeed. Decryption: candidate plaintext and length exact; the return value is characterised exactly (32-bit digest, see C34)."
  },
  {
   "property": "C34",
   "status": "proved",
   "theorems": [
    "Ascon.Masked.C34_masked_accepts_forgery",
    "Ascon.Masked.C34_masked_accepts_iff"
   ],
   "note": "Negative result: a fixed tag difference is accepted for every key, nonce, data and masks."
  },
  {
   "property": "C35",
   "status": "proved",
   "theorems": [
    "Ascon.Masked.C35_share_roundtrip",
    "Ascon.Masked.C35_shares_uniform",
    "Ascon.Masked.C35_refresh_uniform",
    "Ascon.Masked.C35_init_uniform"
   ],
   "note": "Any number of shares; the map from random words to any n-1 shares is a bijection for every data."
  },
  {
   "property": "C36",
   "status": "proved",
   "theorems": [
    "Ascon.Esp32.C36_esp32_encrypt",
    "Ascon.Esp32.C36_esp32_encrypt_lp64",
    "Ascon.Esp32.C36_esp32_decrypt",
    "Ascon.Esp32.C36_esp32_accepts_only_genuine",
    "Ascon.Esp32.C36_esp32_short",
    "Ascon.Esp32.C36_esp32_hash256",
    "Ascon.Esp32.C36_esp32_xof128",
    "Ascon.Esp32.C36_esp32_encrypt_constant_time",
    "Ascon.Esp32.C36_esp32_hash_constant_time",
    "Ascon.Esp32.C36_esp32_decrypt_constant_time"
   ],
   "note": "esp32 modelled with unsigned long of any width; the partial-block overlap restriction for decryption is necessary (C43)"
  },
  {
   "property": "C37",
   "status": "proved",
   "theorems": [
    "Ascon.Props.C37_encrypt_deterministic",
    "Ascon.Props.C37_decrypt_deterministic",
    "Ascon.Props.C37_hash_deterministic",
    "Ascon.Props.C37_prf_deterministic"
   ],
   "note": ""
  },
  {
   "property": "C38",
   "status": "proved",
   "theorems": [
    "Ascon.Props.C38_chaining"
   ],
   "note": ""
  },
  {
   "property": "C39",
   "status": "proved",
   "theorems": [
    "Ascon.Props.C39_prf_blocks",
    "Ascon.Props.C39_xof_blocks"
   ],
   "note": ""
  },
  {
   "property": "C40",
   "status": "proved",
   "theorems": [
    "Ascon.Avr.C40_avr_calling_convention",
    "Ascon.Props.C40_assembly_calling_convention"
   ],
   "note": ""
  },
  {
   "property": "C41",
   "status": "proved",
   "theorems": [
    "Ascon.Masked.C41_masked_encrypt_trace",
    "Ascon.Masked.C41_masked_decrypt_trace"
   ],
   "note": ""
  },
  {
   "property": "C42",
   "status": "proved",
   "theorems": [
    "Ascon.Esp32.C42_esp32_encrypt_truncates",
    "Ascon.Esp32.C42_esp32_plaintext_not_encrypted",
    "Ascon.Esp32.C42_esp32_ciphertext_gap",
    "Ascon.Esp32.C42_esp32_decrypt_truncates",
    "Ascon.Esp32.C42_esp32_forged_associated_data",
    "Ascon.Esp32.C42_esp32_hash_collision",
    "Ascon.Esp32.C42_esp32_xof_collision"
   ],
   "note": "negative result: defect of esp32 for lengths >= 2^w"
  },
  {
   "property": "C43",
   "status": "proved",
   "theorems": [
    "Ascon.Esp32.C43_esp32_decrypt_in_place_whole_blocks",
    "Ascon.Esp32.C43_esp32_decrypt_in_place",
    "Ascon.Esp32.C43_esp32_in_place_rejects_genuine"
   ],
   "note": "negative result: defect of esp32 in in-place decryption"
  },
  {
   "property": "C44",
   "status": "proved",
   "theorems": [
    "Ascon.Neon.C44_neon_encrypt",
    "Ascon.Neon.C44_neon_decrypt",
    "Ascon.Neon.C44_neon_accepts_only_genuine",
    "Ascon.Neon.C44_neon_short",
    "Ascon.Neon.C44_neon_encrypt_constant_time",
    "Ascon.Neon.C44_neon_decrypt_constant_time"
   ],
   "note": "AEAD of neon; alignment and length restrictions are necessary (C45, C46). Hash/XOF of neon are in the registry (C14, C15, ...)"
  },
  {
   "property": "C45",
   "status": "proved",
   "theorems": [
    "Ascon.Neon.C45_neon_unaligned_encrypt_faults",
    "Ascon.Neon.C45_neon_unaligned_decrypt_faults"
   ],
   "note": "negative result: alignment fault of vldm/vstm"
  },
  {
   "property": "C46",
   "status": "proved",
   "theorems": [
    "Ascon.Neon.C46_neon_encrypt_long",
    "Ascon.Neon.C46_neon_decrypt_long"
   ],
   "note": "negative result: the borrow is lost (sub instead of subs)"
  },
  {
   "property": "C47",
   "status": "proved",
   "theorems": [
    "Ascon.Avr.C47_avr_hash256_collision",
    "Ascon.Avr.C47_avr_xof128_collision"
   ],
   "note": "negative result: padding index of src/avr/hash.c"
  },
  {
   "property": "C48",
   "status": "proved",
   "theorems": [
    "Ascon.Avr.C48_avr_mac_forgery",
    "Ascon.Avr.C48_avr_prf_collision"
   ],
   "note": "negative result: padding index of src/avr/prf.c"
  },
  {
   "property": "C49",
   "status": "proved",
   "theorems": [
    "Ascon.Avr.C49_avr_hash_not_standard",
    "Ascon.Avr.C49_avr_mac_not_standard"
   ],
   "note": "negative result: digests/tags differ from the standard (concrete counterexamples to the contracts, through the exact characterisation of what the code computes)"
  },
  {
   "property": "C50",
   "status": "proved",
   "theorems": [
    "Ascon.Avr.C50_avr_hash_safe",
    "Ascon.Avr.C50_avr_hash256_safe",
    "Ascon.Avr.C50_avr_auth_then_verify",
    "Ascon.Avr.C50_avr_constant_time",
    "Ascon.Avr.C50_avr_prfShort"
   ],
   "note": "avr hash.c/prf.c/prfs.c; AEAD of avr and all of avr_lowsize are in the registry"
  },
  {
   "property": "C51",
   "status": "proved",
   "theorems": [
    "Ascon.Rv.C51_rv32i_encrypt"
   ],
   "note": "lengths < 2^31 and word alignment (of buffers with at least one full block) are necessary (C56)"
  },
  {
   "property": "C52",
   "status": "proved",
   "theorems": [
    "Ascon.Rv.C52_rv32i_decrypt",
    "Ascon.Rv.C52_rv32i_accepts_genuine",
    "Ascon.Rv.C52_rv32i_short"
   ],
   "note": "if the ciphertext length is not a multiple of 4 the code reads 1-3 bytes past the tag; the theorem requires them to be readable"
  },
  {
   "property": "C53",
   "status": "proved",
   "theorems": [
    "Ascon.Rv.C53_rv32i_accepts_forgeries"
   ],
   "note": "negative result: XOR-folded tag comparison"
  },
  {
   "property": "C54",
   "status": "proved",
   "theorems": [
    "Ascon.Rv.C54_rv32i_decrypt_in_place",
    "Ascon.Rv.C54_rv32i_in_place_rejects_genuine"
   ],
   "note": "negative result: partial last block is read after the plaintext was written"
  },
  {
   "property": "C55",
   "status": "proved",
   "theorems": [
    "Ascon.Rv.C55_rv32i_encrypt_constant_time",
    "Ascon.Rv.C55_rv32i_decrypt_constant_time",
    "Ascon.Rv.C55_rv32i_calling_convention_encrypt",
    "Ascon.Rv.C55_rv32i_calling_convention_decrypt"
   ],
   "note": ""
  },
  {
   "property": "C56",
   "status": "proved",
   "theorems": [
    "Ascon.Rv.C56_unaligned_nonce_or_key",
    "Ascon.Rv.C56_unaligned_buffers",
    "Ascon.Rv.C56_huge_message"
   ],
   "note": "alignment: in the model lw/sw fault on misaligned addresses (the RISC-V base ISA lets an implementation do so)"
  },
  {
   "property": "C57",
   "status": "proved",
   "theorems": [
    "Ascon.Rv.C57_encrypts_v12",
    "Ascon.Rv.C57_decrypts_v12",
    "Ascon.Rv.C57_decrypts_in_place",
    "Ascon.Rv.C57_accepts_own",
    "Ascon.Rv.C57_accepts_forgeries",
    "Ascon.Rv.C57_short",
    "Ascon.Rv.C57_encrypt_constant_time",
    "Ascon.Rv.C57_decrypt_constant_time",
    "Ascon.Rv.C57_calling_convention_encrypt",
    "Ascon.Rv.C57_calling_convention_decrypt",
    "Ascon.Rv.C57_encrypt_not_aead128",
    "Ascon.Rv.C57_rejects_genuine_aead128",
    "Ascon.Rv.C57_in_place_rejects_own"
   ],
   "note": "negative result: three registered implementations follow the pre-standard algorithm; exact specification in Spec/Ascon128a, checked against the published Ascon-128a test vectors in Test/Kat128a"
  },
  {
   "property": "C58",
   "status": "proved",
   "theorems": [
    "Ascon.Xt.C58_hash_is_v12",
    "Ascon.Xt.C58_xof_is_v12",
    "Ascon.Xt.C58_constant_time"
   ],
   "note": "specification Spec/AsconHash12, checked against published v1.2 test vectors in Test/KatHash12; window overflow exceptions are not modelled"
  },
  {
   "property": "C59",
   "status": "proved",
   "theorems": [
    "Ascon.Xt.C59_hash_not_hash256",
    "Ascon.Xt.C59_xof_not_xof128"
   ],
   "note": "negative result"
  },
  {
   "property": "C60",
   "status": "proved",
   "theorems": [
    "Ascon.Xt.C60_encrypts_v12",
    "Ascon.Xt.C60_decrypts_v12",
    "Ascon.Xt.C60_accepts_own",
    "Ascon.Xt.C60_short",
    "Ascon.Xt.C60_encrypt_constant_time",
    "Ascon.Xt.C60_decrypt_constant_time"
   ],
   "note": "specification Spec/Ascon128a, checked against published v1.2 test vectors in Test/Kat128a; window overflow exceptions are not modelled"
  },
  {
   "property": "C61",
   "status": "proved",
   "theorems": [
    "Ascon.Xt.C61_decrypts_in_place",
    "Ascon.Xt.C61_accepts_forgeries",
    "Ascon.Xt.C61_encrypt_not_aead128",
    "Ascon.Xt.C61_rejects_genuine_aead128",
    "Ascon.Xt.C61_in_place_rejects_own"
   ],
   "note": "negative result"
  },
  {
   "property": "C62",
   "status": "proved",
   "theorems": [
    "Ascon.Props.C62_concurrent_calls"
   ],
   "note": "registry implementations, ref CXOF, esp32, neon AEAD and the masked implementation (each call with its own malloc blocks and its own randombytes stream); interleaving semantics C/Threads.lean, sequentially consistent memory with byte-sized steps (the calls are data-race free, so by DRF this is what C11 gives); the asm_* files are not covered"
  },
  {
   "property": "C63",
   "status": "proved",
   "theorems": [
    "Ascon.Props.C63_interrupted_call",
    "Ascon.Props.C63_retry_after_crash"
   ],
   "note": "same scope as C62; after an in-place call has started its input is gone, so the retry theorem requires outputs and inputs to be disjoint"
  },
  {
   "property": "C64",
   "status": "proved",
   "theorems": [
    "Ascon.Props.C64_perm_probe",
    "Ascon.Props.C64_perm_values",
    "Ascon.Props.C64_two_probes_leak",
    "Ascon.Props.C64_init_probe",
    "Ascon.Props.C64_init_states",
    "Ascon.Props.C64_final_probe",
    "Ascon.Props.C64_final_states"
   ],
   "note": "first order, value-based probes (no transitions, glitches or couplings between registers); the phases the design leaves unmasked (associated data, message) and the key addition right after the first permutation (its masks are those of the permutation input, no independence can be claimed) are outside; two probes are shown to leak (C64_two_probes_leak)"
  },
  {
   "property": "C65",
   "status": "proved",
   "theorems": [
    "Ascon.Props.C65_encrypt_single_pass",
    "Ascon.Props.C65_decrypt_single_pass",
    "Ascon.Props.C65_hash256_single_pass",
    "Ascon.Props.C65_xof128_single_pass",
    "Ascon.Props.C65_crypto_hash_xof128_single_pass",
    "Ascon.Props.C65_cxof128_single_pass",
    "Ascon.Props.C65_mac_prf_single_pass",
    "Ascon.Props.C65_prfShort_fetches",
    "Ascon.Props.C65_verify_single_pass"
   ],
   "note": "source-level accesses, before any compiler; `*mlen`, which src/aead.c and its variants read back after writing it, is a local variable in the model, and so is the key copy of src/avr/prf.c that is loaded twice and used once"
  },
  {
   "property": "C66",
   "status": "proved",
   "theorems": [
    "Ascon.Props.C66_encrypt_shared_inputs",
    "Ascon.Props.C66_decrypt_shared_inputs",
    "Ascon.Props.C66_hash_shared_input",
    "Ascon.Props.C66_mac_verify_shared_inputs"
   ],
   "note": "the reads return arbitrary values (the machine view of what is a data race for the C standard); outputs are disjoint from the inputs and not shared: the generic code reads `*mlen` back after writing it, so a party that can write the length variable is not covered"
  },
  {
   "property": "C67",
   "status": "proved",
   "theorems": [
    "Ascon.Esp32.C67_esp32_encrypt_aligned",
    "Ascon.Esp32.C67_esp32_encrypt_defined_iff_aligned",
    "Ascon.Esp32.C67_esp32_decrypt_aligned",
    "Ascon.Esp32.C67_esp32_decrypt_defined_iff_aligned",
    "Ascon.Esp32.C67_esp32_hash256_defined_iff_aligned",
    "Ascon.Esp32.C67_esp32_xof128_defined_iff_aligned",
    "Ascon.Esp32.C67_esp32_same_trace"
   ],
   "note": ""
  },
  {
   "property": "C68",
   "status": "proved",
   "theorems": [
    "Ascon.Props.C68_encrypt",
    "Ascon.Props.C68_decrypt",
    "Ascon.Props.C68_round_trip",
    "Ascon.Props.C68_same_bytes_as_attached",
    "Ascon.Props.C68_constant_time"
   ],
   "note": ""
  },
  {
   "property": "C69",
   "status": "proved",
   "theorems": [
    "Ascon.Props.C69_interoperate",
    "Ascon.Props.C69_same_ciphertext",
    "Ascon.Props.C69_injective"
   ],
   "note": ""
  },
  {
   "property": "C70",
   "status": "proved",
   "theorems": [
    "Ascon.Props.C70_round_any_registers",
    "Ascon.Props.C70_loop_any_registers",
    "Ascon.Props.C70_encrypt_any_registers",
    "Ascon.Props.C70_decrypt_any_registers",
    "Ascon.Props.C70_hash_any_registers",
    "Ascon.Props.C70_shared_register_wrong"
   ],
   "note": ""
  },
  {
   "property": "C71",
   "status": "proved",
   "theorems": [
    "Ascon.Props.C71_ascon128_encrypt",
    "Ascon.Props.C71_ascon128_decrypt",
    "Ascon.Props.C71_ascon80pq_encrypt",
    "Ascon.Props.C71_ascon80pq_decrypt",
    "Ascon.Props.C71_short_ciphertext_rejected",
    "Ascon.Props.C71_spec_decrypt_iff",
    "Ascon.Props.C71_accepts_only_genuine",
    "Ascon.Props.C71_round_trip",
    "Ascon.Props.C71_encrypt_safe",
    "Ascon.Props.C71_decrypt_safe",
    "Ascon.Props.C71_encrypt_constant_time",
    "Ascon.Props.C71_decrypt_constant_time",
    "Ascon.Props.C71_family_contains_aead128"
   ],
   "note": ""
  },
  {
   "property": "C72",
   "status": "proved",
   "theorems": [
    "Ascon.Props.C72_hasha",
    "Ascon.Props.C72_xofa",
    "Ascon.Props.C72_prfa",
    "Ascon.Props.C72_maca",
    "Ascon.Props.C72_maca_verify",
    "Ascon.Props.C72_initial_values",
    "Ascon.Props.C72_xofa_prefix",
    "Ascon.Props.C72_xofa_safe",
    "Ascon.Props.C72_xofa_constant_time",
    "Ascon.Props.C72_hasha_constant_time",
    "Ascon.Props.C72_prfa_constant_time",
    "Ascon.Props.C72_maca_verify_constant_time",
    "Ascon.Props.C72_prfa_blocks_injective",
    "Ascon.Props.C72_other_output_sizes_undetermined"
   ],
   "note": ""
  },
  {
   "property": "C73",
   "status": "proved",
   "theorems": [
    "Ascon.MaskedN.C73_encrypt_shares",
    "Ascon.MaskedN.C73_decrypt_shares",
    "Ascon.MaskedN.C73_decrypt_shares_genuine",
    "Ascon.MaskedN.C73_decrypt_shares_short",
    "Ascon.MaskedN.C73_shares_accept_forgery",
    "Ascon.MaskedN.C73_share_roundtrip",
    "Ascon.MaskedN.C73_permutation_shares",
    "Ascon.MaskedN.C73_encrypt_shares_trace",
    "Ascon.MaskedN.C73_decrypt_shares_trace"
   ],
   "note": ""
  },
  {
   "property": "C74",
   "status": "proved",
   "theorems": [
    "Ascon.Props.C74_four_shares_two_probes",
    "Ascon.Props.C74_perm_probe",
    "Ascon.Props.C74_perm_uniform",
    "Ascon.Props.C74_states",
    "Ascon.Props.C74_values",
    "Ascon.Props.C74_three_shares_two_probes"
   ],
   "note": ""
  },
  {
   "property": "C75",
   "status": "proved",
   "theorems": [
    "Ascon.MaskedN.C75_masked_encrypt_frees_key",
    "Ascon.MaskedN.C75_masked_encrypt_frees_plaintext",
    "Ascon.MaskedN.C75_masked_decrypt_frees_key",
    "Ascon.MaskedN.C75_masked_decrypt_frees_candidate",
    "Ascon.Impl.C75_mac_verify_leaves_tag",
    "Ascon.Impl.C75_prf_verify_leaves_tag",
    "Ascon.Impl.C75_prfs_verify_leaves_tag",
    "Ascon.Impl.C75_aead_decrypt_leaves_tag",
    "Ascon.Impl.C75_aead_decrypt_leaves_forgery"
   ],
   "note": ""
  },
  {
   "property": "C76",
   "status": "proved",
   "theorems": [
    "Ascon.Impl.C76_lowsize_encrypt_aligned",
    "Ascon.Impl.C76_lowsize_decrypt_aligned",
    "Ascon.Impl.C76_lowsize_encrypt_misaligned",
    "Ascon.Impl.C76_lowsize_decrypt_misaligned",
    "Ascon.Impl.C76_lowsize_no_requirement"
   ],
   "note": ""
  },
  {
   "property": "C77",
   "status": "proved",
   "theorems": [
    "Ascon.MaskedN.C77_masked_encrypt_sizes",
    "Ascon.MaskedN.C77_masked_decrypt_sizes",
    "Ascon.MaskedN.C77_masked_encrypt_block_missing",
    "Ascon.MaskedN.C77_masked_decrypt_block_missing",
    "Ascon.MaskedN.C77_masked_size_overflow"
   ],
   "note": ""
  },
  {
   "property": "C78",
   "status": "proved",
   "theorems": [
    "Ascon.Props.C78_steps_probe",
    "Ascon.Props.C78_steps_uniform",
    "Ascon.Props.C78_encryption_probe",
    "Ascon.Props.C78_comparison_probe",
    "Ascon.Props.C78_encryption_states",
    "Ascon.Props.C78_comparison_states",
    "Ascon.Props.C78_refresh",
    "Ascon.Props.C78_refresh_probe",
    "Ascon.Props.C78_level_final_probe",
    "Ascon.Props.C78_level_encrypt_probe"
   ],
   "note": "value-based probes; assumes the state uniformly shared when the associated data are absorbed (C74 gives this for the result of a permutation on a uniformly shared state; the key addition at the end of the initialisation, with masks not independent of the state, is between them and outside, except where a refresh follows); the absorption of ciphertext in decryption is in C80; unequal numbers of shares within a phase are outside; what MSTORE computes from single shares is a function of a value already counted"
  },
  {
   "property": "C79",
   "status": "proved",
   "theorems": [
    "Ascon.Props.C79_public_words_leak",
    "Ascon.Props.C79_decrypt_states"
   ],
   "note": ""
  },
  {
   "property": "C80",
   "status": "proved",
   "theorems": [
    "Ascon.Props.C80_dsteps_probe",
    "Ascon.Props.C80_decryption_probe",
    "Ascon.Props.C80_decrypt_states",
    "Ascon.Props.C80_decryption_states"
   ],
   "note": "value-based probes; the masks of the ciphertext are random (what generate_shares draws); every length, the last word through MMASK and MXORAND; with fewer shares of the ciphertext the property fails (C79)"
  },
  {
   "property": "C81",
   "status": "proved",
   "theorems": [
    "Ascon.Props.C81_keystream",
    "Ascon.Props.C81_nonce_reuse",
    "Ascon.Props.C81_known_plaintext",
    "Ascon.Props.C81_malleable"
   ],
   "note": "negative: a consequence of the mode, proved of the code through C01 and C02; the later blocks of two messages under one nonce and the tag are not related by it"
  },
  {
   "property": "C82",
   "status": "proved",
   "theorems": [
    "Ascon.Props.C82_encrypt_ahead",
    "Ascon.Props.C82_encrypt_ahead_iff",
    "Ascon.Props.C82_at_most_one",
    "Ascon.Props.C82_encrypt_ahead_wrong"
   ],
   "note": "negative: shows that the overlap condition of C08 is needed; distances below 16 are not covered"
  },
  {
   "property": "C83",
   "status": "proved",
   "theorems": [
    "Ascon.Props.C83_decrypt_ahead",
    "Ascon.Props.C83_decrypt_ahead_iff",
    "Ascon.Props.C83_decrypt_ahead_rejects"
   ],
   "note": "Distances d >= 16 (at least one block). For 1..15 the result depends on the order of the accesses within a block and is not described."
  },
  {
   "property": "C84",
   "status": "proved",
   "theorems": [
    "Ascon.Props.C84_encrypt_len_first",
    "Ascon.Props.C84_decrypt_len_first",
    "Ascon.Props.C84_len_in_output",
    "Ascon.Props.C84_len_in_nonce",
    "Ascon.Props.C84_len_in_nonce_wrong"
   ],
   "note": "All implementations of the registry; the overlap of input and output is still restricted as in C08 (C82, C83 for the rest)."
  },
  {
   "property": "C85",
   "status": "proved",
   "theorems": [
    "Ascon.Props.C85_agree_from_16",
    "Ascon.Props.C85_decrypt_agree_from_16",
    "Ascon.Props.C85_disagree_below_16"
   ],
   "note": "The negative part is existential in the call and covers all 15 distances; it is about ref and opt64. For d < 8, opt8 gives a third string on that call (evaluated, not proved)."
  }
 ]
}