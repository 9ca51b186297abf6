#!/usr/bin/env python3
"""Regenerate MANIFEST.json: theorems are found by their cNN_ prefix."""
import json, re, glob, collections
PARTIAL = {
 "C07": "The stated property is false of the code: c07_two_byte_buffer_panics is the negation; c07_no_panic_partial covers every longer buffer.",
 "C18": "False of the code when mutual authentication is requested (c18_mutual_auth_lost); proved without it, and the reader inverts the documented layout with it.",
 "C20": "False of the code for vendor-defined errors with opaque data (c20_vendor_opaque_lost); proved for every other ERROR.",
 "C22": "False of the code for maximal block sets, and for a slot without signature (negations proved); proved for the rest.",
 "C24": "False of the code: panic witnesses proved; c24_no_panic_partial covers the other parsers and c24_no_panic_large_arrays_partial the configurations with arrays of 255 entries.",
 "C26": "False of the code for the messages of C18/C22 (witnesses proved); proved for the rest.",
 "C29": "The stated property is false of the code (negations proved for the whole endpoint); the non-empty case is c29_nonempty_offer_partial.",
 "C38": "The stated property is false of the code (negation proved); proved: the portion sent is exactly the whole chain (so offset 0 with a large enough length is honoured).",
 "C46": "The stated property is false of the code (negation proved).",
 "C47": "The stated property is false of the code (negation proved); c47 partial: accepted slot numbers are at most NUM_SLOTS.",
 "C57": "The stated property is false of the code (negation proved: c57_capabilities_spliced); proved for conversations without trailing bytes.",
 "C52": "The stated property is false of the code (negation proved); total for signatures with non-zero halves.",
}
PARTIAL["C58"] = "The stated property is false of the code (negations proved for every history); c58_no_abort_partial covers every request outside the listed cases."
PARTIAL["C59"] = "The stated property is false of the code (negations proved for every history); c59_no_abort_partial and, for accepted configurations, c59_built_no_abort_partial cover every response outside the listed cases; next_request is covered completely."
PARTIAL["C60"] = "Proved for the requester and for a responder whose slots are all empty; c60_responder_stub_called shows that a filled slot makes GET_DIGESTS abort in the stub."
PARTIAL["C61"] = "Proved for CAPABILITIES and, weaker, for ALGORITHMS; false of the code for the other responses (c61_completes_without_challenge, c61_algorithms_after_failed_request)."
PARTIAL["C63"] = "True of GET_VERSION only; every other request is recorded twice (c63_recorded_twice) and authentication then fails (c63_retransmission_breaks_authentication)."
PARTIAL["C69"] = "False of the code (c69_digest_not_compared); c69_honest_messages_agree_partial: an honest responder's messages do agree."
PARTIAL["C70"] = "False of the code (c70_root_hash_unchecked); c70_configured_root_partial: the path is always verified to the configured root."
PARTIAL["C71"] = "False of the code (c71_remainder_ignored); c71_honest_remainder_partial: an honest responder sends the whole chain."
PARTIAL["C72"] = "False of the responder (c72_unadvertised_served); c72_requester_asks_advertised_partial: true of the requester."
PARTIAL["C73"] = "False of the code (c73_expired_accepted); c73_fixed_time_partial: behaviour depends on validity at the fixed time only."
PARTIAL["C79"] = "Proved for nine message types (c79_reserialised_partial) and, for the others, for the canonical layout (c79_canonical_layout_partial); false in general for six types (c79_not_reserialised)."
PARTIAL["C87"] = "false of the code in two cases, proved as `c87_empty_offer_differs` and `c87_slot_eight_differs`; equality is proved for every other call (`c87_call_partial`, `c87_requester_partial`) and history (`c87_history_partial`, `c87_release_history_partial`)"
PARTIAL["C90"] = "false of the responder (`c90_unusable_selected`) and of configurations with a small MAX_DIGEST_SIZE (`c90_digest_size_unchecked`); proved for the requester (`c90_requester`, MAX_DIGEST_SIZE at least 64) and for the responder when everything offered is usable (`c90_responder_partial`, `c90_built_peer_partial`)"
PARTIAL["C91"] = "false of the code: the declarations have no effect (`c91_declarations_ignored`, `c91_not_enforced`, `c91_witness`); proved when every accepted offer forces the declared algorithms (`c91_forced_partial`, `c91_built_offer_partial`)"
PARTIAL["C94"] = "false of the code for counts above MAX_MEASUREMENT_BLOCKS (`c94_number_refused`), and, from C22, for unsigned messages with a slot and blocks of maximal size; the rest is proved (`c94_num`, `c94_blocks`, `c94_bit_stream`, `c94_challenge`, `c94_num_travels_partial`, `c94_blocks_travel_partial`)"
PARTIAL["C95"] = "false of the code (`c95_any_time`, `c95_witness`); proved for sessions begun after `handle_msg` returned `true` (`c95_after_completion_partial`)"
PARTIAL["C96"] = "false of the code for a transcript that has been cleared (`c96_transcript_stale`); proved for transcripts that have not (`c96_transcript_partial`), for opaque elements and lists (`c96_element`, `c96_element_content`, `c96_opaque`) and raw measurements (`c96_stream`, `c96_stream_view`, `c96_stream_new`)"
PARTIAL["C99"] = "false for a buffer of 65536 bytes (c99_asks_for_nothing); proved for every smaller one, and exactly for those"
PARTIAL["C101"] = "false of the code (c101_one_signature_two_sessions: one signature, two requesters with different nonces, equal transcripts); proved for conversations in which no message has bytes behind its end"
PARTIAL["C111"] = "a configuration file named by SPDM_CONFIG is not watched by cargo: after an edit the old constants are compiled in (c111_stale, c111_stale_wrong); proved for watched files and for files left alone since the first build"
PARTIAL["C112"] = "the two loops complete if the message received is passed to handle_msg; with the README's responder loop as written (it passes the whole of req_buf) they do not: c112_readme_pair_fails, c112_readme_never_authenticates (for all inputs, under the assumptions of C50)"
PARTIAL["C115"] = "The stated property is false of the code (`c115_one_bit`, `c115_keyless_peer`, for every configuration with a signing algorithm); `c115_completion_partial` says exactly when completion is authentication."
PARTIAL["C117"] = "The stated property is false of the code (`c117_asking_again_fails`); `c117_first_exchange_partial` proves it for the first exchange."
NOTES = {}
try:
    exec(open('/verif/tools/manifest_notes.py').read())
except FileNotFoundError:
    pass
th = collections.defaultdict(list)
for f in sorted(glob.glob('/verif/lean/Verif/Props/*.lean')):
    for m in re.finditer(r'^theorem (c(\d\d+)_\w+)', open(f).read(), re.M):
        th['C'+m.group(2)].append('Spdm.'+m.group(1))
ids = [json.loads(l)['id'] for l in open('/verif/properties.jsonl')]
claims = []
for i in ids:
    if not th[i]:
        continue
    st = "partial" if i in PARTIAL else "proved"
    claims.append({"property": i, "status": st, "theorems": th[i], "note": PARTIAL.get(i, NOTES.get(i, ""))})
with open('/verif/MANIFEST.json','w') as f:
    f.write('{"claims": [\n' + ',\n'.join(' '+json.dumps(c) for c in claims) + '\n]}\n')
print(len(claims), "claims; missing:", [i for i in ids if not th[i]])
