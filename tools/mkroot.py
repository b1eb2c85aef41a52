"""Regenerate lean/Verif.lean: import every module of the model, specification, proofs and properties."""
import glob,os
r=os.path.join(os.path.dirname(__file__),'..','lean')
fs=[]
for d in ['Model','Spec','Proofs','Props']:
    fs+=sorted(glob.glob(os.path.join(r,'Verif',d,'*.lean')))
open(os.path.join(r,'Verif.lean'),'w').write(''.join('import '+os.path.relpath(f,r)[:-5].replace('/','.')+'\n' for f in fs))
