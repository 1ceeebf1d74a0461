import json
C=[]
def c(p,st,th,note): C.append(dict(property=p,status=st,theorems=th,note=note))
E='Eupf.'
def m(p,st,th,note): c(p,st,[E+t for t in th.split()],note)
m('C01','proved','C01_no_association','all node states')
m('C02','proved','C02_unknown_seid','all node states')
m('C03','proved','C03_mandatory','all node states')
m('C04','proved','C04_seid_fresh C04_seid_new C04_not_unique_across_peers','all histories with < 2^64-2 establishment requests; negation across peers')
m('C05','proved','C05_isolation C05_association_messages','all node states, all outcomes')
m('C06','proved','C06_sequence C06_on_the_wire C06_header_seid','header SEID against a ledger kept from the messages only')
m('C07','proved','IdTracker.C07_alloc IdTracker.C07_held_nodup IdTracker.C07_release_out_of_range','all call sequences')
m('C12','partial','C12_rejected_establishment_partial C12_no_rollback','sessions unchanged proved; "installs nothing" is false, witness proved')
m('C13','partial','C13_no_double_handout C13_conservation_partial C13_leak','conservation only without overwriting (seid,pdr) entries; the leak is proved')
m('C48','proved','C48_repeated_setup','all node states')
m('C52','proved','C52_session_gauge','all histories with < 2^64-2 establishment requests')
m('C55','partial','C55_terminates_partial C55_diverges','false for range 2^32-1, non-termination proved')
exec(open('/verif/tools/manifest_more.py').read()) if __import__('os').path.exists('/verif/tools/manifest_more.py') else None
C.sort(key=lambda x:x['property'])
json.dump({"claims":C},open('/verif/MANIFEST.json','w'),indent=1)
print(len(C))
