import sys; sys.path.insert(0,'/tmp/lr')
from lr import *
import gram
rules=gram.rules
print(len(rules), rules[:3], rules[95])
