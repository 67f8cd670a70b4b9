__pycache__/
