import sys; sys.path.insert(0,'/root/work/sb')
from ex import *
A=[('tIDENTIFIER','foo',0,3),('tINTEGER','1',4,5),('tCOMMA',',',5,6),('kIF','if',7,9),('tIDENTIFIER','x',10,11),('tSEMI',';',11,12)]
def end(k): return [('tSEMI',';',k,k+1),('kEND','end',k+2,k+5)]
B=A+[('tIDENTIFIER','bar',13,16),('tLPAREN_ARG','(',17,18),('tIDENTIFIER','a',18,19),('tRPAREN',')',19,20),('tLBRACE_ARG','{',21,22),('tRCURLY','}',22,23),('kDO_BLOCK','do',24,26),('kEND','end',27,30)]+end(30)
C=A+[('kRETURN','return',13,19),('tINTEGER','1',20,21),('kDO_BLOCK','do',22,24),('kEND','end',25,28)]+end(28)
G=A+[('kRETURN','return',13,19),('tIDENTIFIER','bar',20,23),('tINTEGER','1',24,25),('kDO_BLOCK','do',26,28),('kEND','end',29,32)]+end(32)
for n in (B,C,G): print(wrap(go('program',n)));print()
