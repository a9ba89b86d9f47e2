.lake/
lean/.lake/
__pycache__/
