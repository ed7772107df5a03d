"""Writes seeded/LOG.jsonl from the results of the mutation runs (arguments: result files) and a table of tightenings."""
import json,sys
TIGHT={
 'm906':(['C29_exception_3d_violated'],'survived at first: the theorem was about a failure at the first cell; it now says what remains of the cells before'),
 'm909':(['C29_exception_fpma_violated'],'survived at first: the theorem was about a failure at the first edge of the first face; it now says what remains of the faces before and of that face'),
 'm828':(['C63_any_stdio'],'survived at first: nothing was said about unknown classes with printf; C63_any_stdio was added'),
 'm830':([],'no claim is broken: the branch is not reached by any choice of the table of formats'),
 'm831':([],'no claim is broken: the branch is not reached by any choice of the table of formats'),
 'm841':([],'no claim is broken: an earlier entry of the list is always chosen before this one'),
 'm860':(['C66_math_h'],'survived at first: long double was in no theorem; C66_math_h was added'),
 'm795':(['C63_nested'],'survived at first: C63_nested was only about the stream; it now also covers printf'),
 'm815':(['C62_browser','C62_browser_show_all'],'survived at first: the statements at the end of the document were not connected with the model of the script; C62_browser was added'),
 'm135':(['C52_keywords'],'survived at first: no theorem covered a text that is not ASCII; C52 was added, the edit now breaks it'),
 'm183':(['C29_signature_sees'],'survived at first; C29_signature_sees was added'),
 'm226':(['C54_centers','C54_distances'],'survived at first: no theorem covered the centers of boundary cells; C54 was added'),
 'm316':(['C17_allocate_tuple'],'survived at first; C17_allocate_tuple was added'),
 'm332':(['C39_measures_high','C39_nonneg_high'],'survived at first: nothing was proved above dimension 3; C39_measures_high was added'),
 'm333':(['C39_measures_high','C39_nonneg_high'],'survived at first: nothing was proved above dimension 3; C39_measures_high was added'),
 'm160':(['C56_base_partial','C56_first_edge'],'survived at first: orientation of exported solids was not stated; C56 was added'),
 'm318':([],'the edited program is equivalent'),
 'm400':(['C57_vtk_points_violated','C57_vtk_cells_violated'],'survived at first; the theorems now also cover a word in place of a number'),
 'm408':(['C57_data_short_violated'],'survived at first; C57_data_short_violated was added'),
 'm435':([],'the edited program is equivalent: the texts are only compared with each other'),
 'm512':(['C60_palette'],'survived at first: the colours themselves were in no theorem; C60_palette was added'),
 'm645':(['C27_base_violated'],'survived at first: nothing was said about cells without the base face their type promises; C27_base_violated was added'),
 'm582':([],'the edited program is equivalent: the default value is overwritten'),
 'm678':(['C61_other_class'],'survived at first; C61_other_class was added'),
 'm694':([],'the edited program is equivalent on pages that can be reached: without filters nothing is shown either way (C62_no_filter_violated)'),
 'm701':(['C62_text'],'survived at first: the colours of the rows were in no theorem; C62_text was added'),
 'm703':(['C62_text'],'survived at first: the colours of the rows were in no theorem; C62_text was added'),
 'm704':(['C62_edit'],'survived at first; C62_edit was added'),
 'm719':([],'the claim stays true: the serializer for compact containers gives the bytes of the elements one after the other, as the others do'),
 'm735':([],'the edited program is equivalent: the branch is never reached, which C65_every_schedule_partial proves'),
 'm739':([],'the claim stays true: the text of a call is the same and calls still mix'),
 'm757':(['C66_smallest_violated'],'survived at first: the theorem used the smallest value of the model; it now names the numbers'),
 'm766':(['C67_meaning_partial'],'survived at first: both programs were wrong in the same way; C67_meaning_partial was added'),
 'm272':(['C46_load_which'],'survived at first; C46_load_which was added'),
}
import os
if os.path.exists('/tmp/mut/tight.json'):
    TIGHT.update({k:tuple(v) for k,v in json.load(open('/tmp/mut/tight.json')).items()})
seen={}
for f in sys.argv[1:]:
    for l in open(f):
        o=json.loads(l)
        if o['rc']=='BAD': continue
        if o['id'] in seen and o['rc']==0 and seen[o['id']]['rc']!=0: continue
        seen[o['id']]=o
with open('/verif/seeded/LOG.jsonl','w') as out:
    for k in sorted(seen):
        o=seen[k]
        t,note=TIGHT.get(k,([],''))
        r={'id':k,'definition':o['definition'],'edit':o['edit'],'claim_broken':o['claim_broken'],
           'theorems_failed':[m+': '+d for m,ds in o['theorems_failed'].items() for d in ds],
           'theorems_tightened':list(t)}
        if not r['theorems_failed'] and o.get('failed_modules'): r['theorems_failed']=['module '+m for m in o['failed_modules']]
        if note: r['note']=note
        out.write(json.dumps(r)+"\n")
print(len(seen))
