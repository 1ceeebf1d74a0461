{
 "path_type": [
  "C53_sequence"
 ],
 "path_octets": [
  "C53_request"
 ],
 "features_swapped": [
  "C70_advertised"
 ],
 "delpdr_norelease": [
  "C87_deleted"
 ],
 "w_resp_name": [
  "C06_on_the_wire"
 ],
 "w_resp_dst": [
  "C06_on_the_wire"
 ],
 "w_resp_seq": [
  "C06_on_the_wire"
 ],
 "w_probe_seq": [
  "C06_on_the_wire"
 ],
 "i_urr_rev": [
  "C38_recorded"
 ],
 "h_urr2": [
  "C38_recorded"
 ],
 "rm_ippool_first": [
  "C15_prefix"
 ],
 "rm_ippool_mask": [
  "C15_prefix"
 ],
 "j_le": [
  "C89_sessions"
 ],
 "j_octets4": [
  "C89_sessions"
 ],
 "j_octets6": [
  "C89_sessions"
 ],
 "j_mask": [
  "C89_sessions"
 ],
 "j_ip4": [
  "C89_sessions"
 ],
 "r6_w_split": [
  "C69_bracketed"
 ],
 "r6_l_curr": [
  "C46_urr"
 ],
 "r6_updqer_nodp": [
  "C36_tables"
 ],
 "r6_g_psc": [
  "none: the edit changes nothing, the PDU type passed is always 0 (gtp_utils.h 248)"
 ],
 "sweep2_66": [
  "C46_pdr_record",
  "C46_pdr_write"
 ],
 "notes": {
  "sweep2_66": "C46: the forwarding plane reads the protocol of a filter with another width than user space writes",
  "sweep2_105": "C86: the lookup of a PDR's QER is a read of the session's QERs, which a concurrent write makes fatal",
  "sweep1_129": "C86: a session's first TEID is a write of the table of used TEIDs",
  "sweep1_188": "none: objects have no duplicate keys, so strict and non-strict order sort alike",
  "sweep2_123": "C46: user space and forwarding plane lay out a PDR differently (the scratch copy did not run the decided layout theorems; on a full build C46_pdr_record fails)",
  "sweep2_138": "C46: user space and forwarding plane lay out a PDR differently (the scratch copy did not run the decided layout theorems; on a full build C46_pdr_record fails)",
  "sweep2_157": "C46: user space and forwarding plane lay out a PDR differently (the scratch copy did not run the decided layout theorems; on a full build C46_pdr_record fails)",
  "sweep2_188": "C46: user space and forwarding plane lay out a PDR differently (the scratch copy did not run the decided layout theorems; on a full build C46_pdr_record fails)",
  "sweep2_131": "C86: a session's first TEID is a write of the table of used TEIDs",
  "sweep2_168": "none: the operations that follow the removal do not depend on the PDRs left in the session"
 },
 "sweep2_105": [
  "C86_refs_read"
 ],
 "sweep1_129": [
  "C86_teid_writes"
 ],
 "sweep2_123": [
  "C46_pdr_record"
 ],
 "sweep2_138": [
  "C46_pdr_record"
 ],
 "sweep2_157": [
  "C46_pdr_record"
 ],
 "sweep2_188": [
  "C46_pdr_record"
 ],
 "sweep2_131": [
  "C86_teid_writes"
 ],
 "ra_boot_keep": [
  "C88_room"
 ]
}