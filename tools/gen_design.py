import json
how=dict(
C01="case analysis of the three handlers, all node states",C02="same",C03="same",
C04="invariant over all histories: every SEID handed out is at most the counter; ledger specification `Spec/Ledger`",
C05="frame condition of every handler step, all states and outcomes",
C06="functional statement per step; header SEID against a ledger built from the messages only",
C07="invariant + abstract set of outstanding ids computed from the observations; induction over call sequences",
C08="ownership invariant (`Slots`) over all histories; witness for requests naming unknown rules",
C09="agreement invariant along with C08",
C10="deletion walked through loop by loop under the invariants of C08; witness for colliding TEIDs",
C11="same; witnesses", C12="case analysis; witness",
C13="multiset conservation invariant over all pool call sequences; witness of a leak",
C14="TEID ownership invariant over all histories meeting the conditions; four witnesses",
C15="as C13; witness",
C16="invariant over the PDR loop of a request relating chosen TEIDs, cache and pool",
C17="the same invariant, relating the Created PDR list to table entries",
C18="walk through `createPdr`/`updatePdr`; entry compared with a specification of the rule (`Spec/Installed`)",
C19="algebra of `pdrToStore`; witness",C20="witness and partial",
C21="soundness and completeness of the parser against a declarative grammar (`Spec/SdfGrammar`)",
C22="general: masks out of range give the matcher of `any`",
C23="bit-vector semantics of the matcher against `Spec/SdfMeaning` on packet octets; witnesses",C24="same; for arbitrary ranges the exact condition, bit by bit, by the positions of the octets in the 128-bit numbers the program compares",
C25="determinate outcome of the XDP program (`Xdp/Outcome`) compared with `Spec/Flow`",
C26="same",C27="octet-level equality with `Spec/Tunnel`",C28="same; witness",C29="composition of C27 and C28",
C30="ones' complement arithmetic (`Xdp/CsumLemmas`), `Spec/Checksum`",C31="octet-level equality",C32="octet-level equality",
C33="octet-level equality; incremental checksum update proved valid modulo 2^16-1; witness",
C34="induction over arrival sequences with a potential function on the timer",
C35="arithmetic; witness",C36="walk through the modification body (`MergeLemmas`), `Spec/Merge`",C37="same",
C38="walk through packet program; all histories keep URR ids 0 (witness of the general failure)",
C39="walk through deletion and removal under the invariants of C08; witness",
C40="induction over frame sequences",C41="induction over CPUs, linked to C40 and C62",C42="induction over scrapes",
C43="invariant on the labelled transition system: miss counter = expiries since the last matching answer in the trace",
C44="invariants; closure of the wedged states; constructed executions",C45="as C10 for the peer-loss path",
C46="layout rule as a function (the complete PDR record with its embedded filter included, C46_pdr_record, C46_pdr_write), memory images computed and read back for all values",
C47="case analysis; slots via C07",C48="case analysis",
C49="outcome of the program is never a panic (checked memory)",C50="frame condition of each packet, induction over sequences, linked to `TrafficEffect`",
C51="permutation-invariant reasoning about the nested map loops",C52="ledger induction",
C53="invariant over ticks; composition with the XDP echo responder",C54="exact effect, witness",
C55="loop invariant; non-termination by showing every iterate is defined",C56="general statement that no key is removed, witness",
C57="witness",C58="witness",C59="crash-freedom invariant over all histories of well-formed messages; witnesses",
C60="invariant: keys of the uplink table come from messages or the pool",
C61="constructed infinite execution; C43 for silence",C62="frame classes (`Spec/Counters`) against the program, induction over sequences",
C63="direct",
)
exec(open('/verif/tools/design_more.py').read()) if __import__('os').path.exists('/verif/tools/design_more.py') else None
P=[json.loads(l) for l in open('/verif/properties.jsonl')]
M={c['property']:c for c in json.load(open('/verif/MANIFEST.json'))['claims']}
rows=["| id | property | status | how it is modelled and proved |","|---|---|---|---|"]
for p in P:
    c=M.get(p['id'])
    rows.append("| %s | %s | %s | %s |"%(p['id'],p['title'],c['status'] if c else 'open',how.get(p['id'],'')))
t=open('/verif/tools/design.in.md').read().replace('TABLE',"\n".join(rows)).replace('MORE_MODELLED\n',globals().get('more',''))
open('/verif/DESIGN.md','w').write(t)
